import Verif.Ksy.Conform.Base
import Verif.Ksy.Conform.RadioId
/-
Generated by tools/mkconform.py: the schema of `RealTimeTransportProtocol` against the model of the Python classes.
-/

set_option linter.unusedSimpArgs false
set_option maxHeartbeats 1000000

namespace Dmr.Ksy.Hytera

@[ksy] theorem resolve_RealTimeTransportProtocol_CallTypes (v : Nat) : Hytera.RealTimeTransportProtocol.CallTypes.resolve v = EnumVal.toPy "CallTypes" (resolveEnum Dmr.Hytera.RealTimeTransportProtocol.CallTypes v) :=
  resolve_eq _ (by decide) v

@[ksy ↓] theorem read_RealTimeTransportProtocol_CallTypes_u1 (ev sub) : readTy ev sub (.primEnum .u1 Hytera.RealTimeTransportProtocol.CallTypes) =
    asEnum Dmr.Hytera.RealTimeTransportProtocol.CallTypes readU1 >>= fun e => pure (some (EnumVal.toPy "CallTypes" e)) :=
  enum_prim resolve_RealTimeTransportProtocol_CallTypes .u1 readU1 rfl ev sub

/-- An element with a required value. -/
@[ksy ↓] theorem read_valid (ev : PyVal → Expr → Rd PyVal) (sub : TypeDef → Rd PyVal) (id k e place) :
    Attr.read ev sub ⟨id, .bits k, none, .once, some (e, place)⟩ = (do
      let x ← readBitsIntBe k
      let w ← ev .none e
      if same (.int (Int.ofNat x)) w then return some (.int (Int.ofNat x)) else Rd.throw (.validation place)) := by
  simp only [Attr.read, holds, repeated, pure_bind, if_true, readTy_bits, bind_assoc]

/-- The required value 2. -/
@[ksy] theorem valid_2 (x : Nat) (place : String) (f : Option PyVal → Rd α) :
    ((if same (.int (x : Int)) (.int 2) = true then pure (some (.int (x : Int))) else Rd.throw (.validation place)) >>= f) =
      (validateEq x 2 place >>= fun _ => f (some (.int (x : Int)))) := by
  unfold validateEq
  by_cases h : x = 2
  · subst h; rfl
  · rw [if_neg h, if_neg (by rw [same]; simp; omega)]; rfl

/-- okdmr/kaitai/hytera/real_time_transport_protocol.ksy type `fixed_header` against
`Dmr.Hytera.RealTimeTransportProtocol.FixedHeader`. -/
@[ksy ↓] theorem RealTimeTransportProtocol_FixedHeader_conforms (n : Nat) (sc : Scope) :
    parse (n + 1) sc Hytera.RealTimeTransportProtocol.FixedHeader =
      (fun x => view (Dmr.Hytera.RealTimeTransportProtocol.FixedHeader.toPy x)) <$>
        Dmr.Hytera.RealTimeTransportProtocol.FixedHeader.read := by
  rw [parse_succ]
  ksy_simp [Dmr.Hytera.RealTimeTransportProtocol.FixedHeader.read, Dmr.Hytera.RealTimeTransportProtocol.FixedHeader.toPy]

/-- okdmr/kaitai/hytera/real_time_transport_protocol.ksy:53-74 against `Dmr.Hytera.RealTimeTransportProtocol.HeaderExtension`. -/
@[ksy ↓] theorem RealTimeTransportProtocol_HeaderExtension_conforms (n : Nat) (sc : Scope) :
    parse (n + 2) sc Hytera.RealTimeTransportProtocol.HeaderExtension = (fun x => view (Dmr.Hytera.RealTimeTransportProtocol.HeaderExtension.toPy x)) <$> Dmr.Hytera.RealTimeTransportProtocol.HeaderExtension.read := by
  rw [parse_succ]
  ksy_simp [Dmr.Hytera.RealTimeTransportProtocol.HeaderExtension.read, Dmr.Hytera.RealTimeTransportProtocol.HeaderExtension.toPy]

/-- Attributes of the header that the schema asks for. -/
@[ksy] theorem FixedHeader_extension (h : Dmr.Hytera.RealTimeTransportProtocol.FixedHeader) :
    getAttr (view (Dmr.Hytera.RealTimeTransportProtocol.FixedHeader.toPy h)) "extension" = pure (.bool h.extension) := by
  ksy_simp [Dmr.Hytera.RealTimeTransportProtocol.FixedHeader.toPy, get_attr]

@[ksy] theorem FixedHeader_padding (h : Dmr.Hytera.RealTimeTransportProtocol.FixedHeader) :
    getAttr (view (Dmr.Hytera.RealTimeTransportProtocol.FixedHeader.toPy h)) "padding" = pure (.bool h.padding) := by
  ksy_simp [Dmr.Hytera.RealTimeTransportProtocol.FixedHeader.toPy, get_attr]

/-- The instance `len_padding_if_exists` of a packet with padding. -/
theorem RealTimeTransportProtocol_len_padding_if_exists (n : Nat) (attrs : List (String × PyVal)) (root : Frame)
    (h : Dmr.Hytera.RealTimeTransportProtocol.FixedHeader) (hp : h.padding = true)
    (hl : attrs.lookup "fixed_header" = some (view (Dmr.Hytera.RealTimeTransportProtocol.FixedHeader.toPy h))) :
    inst (n + 1) ⟨Hytera.RealTimeTransportProtocol, attrs⟩ root "len_padding_if_exists" =
      (fun v => .int (Int.ofNat v)) <$> Dmr.Hytera.RealTimeTransportProtocol.lenPadding h := by
  have e (k : Nat) : Int.toNat ((k : Int) - 1) = k - 1 := by omega
  rw [inst_at_if _ _ _ _ _ _ _ rfl]
  ksy_simp [hl, hp, e, Dmr.Hytera.RealTimeTransportProtocol.lenPadding,
    Dmr.Hytera.RealTimeTransportProtocol.lenPaddingIfExists, Option.getD_some]

/-- The instance `len_padding` against the property of the Python class on its first access. -/
theorem RealTimeTransportProtocol_len_padding (n : Nat) (attrs : List (String × PyVal)) (root : Frame)
    (h : Dmr.Hytera.RealTimeTransportProtocol.FixedHeader)
    (hl : attrs.lookup "fixed_header" = some (view (Dmr.Hytera.RealTimeTransportProtocol.FixedHeader.toPy h)))
    (hn : attrs.lookup "len_padding_if_exists" = none) :
    inst (n + 2) ⟨Hytera.RealTimeTransportProtocol, attrs⟩ root "len_padding" =
      (fun v => .int (Int.ofNat v)) <$> Dmr.Hytera.RealTimeTransportProtocol.lenPadding h := by
  have c0 : ((0 : Nat) : Int) = 0 := rfl
  rw [inst_value _ _ _ _ _ rfl]
  by_cases hp : h.padding = true
  · ksy_simp [hl, hn, hp, RealTimeTransportProtocol_len_padding_if_exists n attrs root h hp hl]
  · ksy_simp [hl, hp, c0, Dmr.Hytera.RealTimeTransportProtocol.lenPadding]

/-- `len_padding` of a packet with padding: the last byte of the stream; pending bits are dropped. -/
theorem lenPadding_run (h : Dmr.Hytera.RealTimeTransportProtocol.FixedHeader) (hp : h.padding = true) (s : Stream) :
    Dmr.Hytera.RealTimeTransportProtocol.lenPadding h s =
      if 1 ≤ s.buf.length then (.ok (u8 ((s.buf.drop (s.buf.length - 1)).take 1) 0), { s with bits := 0, bitsLeft := 0 })
      else (.error .eof, { s with pos := 0, bits := 0, bitsLeft := 0 }) := by
  unfold Dmr.Hytera.RealTimeTransportProtocol.lenPadding Dmr.Hytera.RealTimeTransportProtocol.lenPaddingIfExists
  rw [if_pos hp, hp, optionally_true]
  show Rd.bind (Rd.bind (Rd.bind posIo _) _) _ s = _
  by_cases hb : 1 ≤ s.buf.length
  · rw [if_pos hb]
    have : 1 ≤ ((s.buf.drop (s.buf.length - 1)).take 1).length := by rw [List.length_take, List.length_drop]; omega
    have hm : 1 ≤ min 1 (s.buf.length - (s.buf.length - 1)) := by omega
    simp [Rd.bind, posIo, sizeIo, seekIo, readU1, readBytes, alignToByte, readBytesNotAligned, bind, pure, Rd.pure, if_pos hm]
  · rw [if_neg hb]
    have : s.buf = [] := by cases hh : s.buf with
      | nil => rfl
      | cons a l => rw [hh] at hb; simp at hb
    simp [Rd.bind, posIo, sizeIo, seekIo, readU1, readBytes, alignToByte, readBytesNotAligned, bind, pure, Rd.pure, this]

/-- `len_padding` a second time, after some bytes have been read, is what it was the first time (the Python class keeps it; the
schema computes it again). -/
theorem lenPadding_again (h : Dmr.Hytera.RealTimeTransportProtocol.FixedHeader) (k : Nat → Int) (f : Nat → Bytes → Nat → Rd α) :
    (do let m ← Dmr.Hytera.RealTimeTransportProtocol.lenPadding h
        let b ← readBytesInt (k m)
        let m' ← Dmr.Hytera.RealTimeTransportProtocol.lenPadding h
        f m b m') =
    (do let m ← Dmr.Hytera.RealTimeTransportProtocol.lenPadding h
        let b ← readBytesInt (k m)
        f m b m) := by
  by_cases hp : h.padding = true
  · funext s
    show Rd.bind _ (fun m => Rd.bind (readBytesInt (k m)) fun b => Rd.bind _ _) s =
      Rd.bind _ (fun m => Rd.bind (readBytesInt (k m)) fun b => f m b m) s
    unfold Rd.bind
    rw [lenPadding_run h hp]
    by_cases hb : 1 ≤ s.buf.length
    · rw [if_pos hb]
      dsimp only
      generalize hm : u8 ((s.buf.drop (s.buf.length - 1)).take 1) 0 = m
      have hbuf (b : Bytes) (s' : Stream) (e : readBytesInt (k m) { s with bits := 0, bitsLeft := 0 } = (.ok b, s')) :
          s'.buf = s.buf ∧ s' = { s' with bits := 0, bitsLeft := 0 } := by
        unfold readBytesInt at e
        change Rd.bind alignToByte _ _ = _ at e
        unfold Rd.bind alignToByte at e
        dsimp only at e
        split at e
        · cases e
        · unfold readBytesNotAligned at e
          dsimp only at e
          split at e
          · cases e; exact ⟨rfl, rfl⟩
          · cases e
      rcases e : readBytesInt (k m) { s with bits := 0, bitsLeft := 0 } with ⟨_ | b, s'⟩
      · rfl
      · obtain ⟨e1, e2⟩ := hbuf b s' e
        dsimp only
        rw [lenPadding_run h hp, e1, if_pos hb, hm]
        rw [e1] at e2
        exact congrArg (f m b m) e2.symm
    · rw [if_neg hb]
  · have : Dmr.Hytera.RealTimeTransportProtocol.lenPadding h = pure 0 := by
      unfold Dmr.Hytera.RealTimeTransportProtocol.lenPadding; rw [if_neg hp]
    rw [this]; rfl

/-- okdmr/kaitai/hytera/real_time_transport_protocol.ksy against `Dmr.Hytera.RealTimeTransportProtocol`. -/
@[ksy ↓] theorem RealTimeTransportProtocol_conforms (n : Nat) (sc : Scope) :
    parse (n + 3) sc Hytera.RealTimeTransportProtocol =
      (fun x => view (Dmr.Hytera.RealTimeTransportProtocol.toPy x)) <$> Dmr.Hytera.RealTimeTransportProtocol.read := by
  rw [parse_succ]
  ksy_simp [Dmr.Hytera.RealTimeTransportProtocol.read, Dmr.Hytera.RealTimeTransportProtocol.toPy]
  refine rd_bind_congr fun h => rd_bind_congr fun e => rd_bind_congr fun size => rd_bind_congr fun pos => ?_
  have l1 (l root) (hl : List.lookup "len_padding_if_exists" l = none) :=
    RealTimeTransportProtocol_len_padding n (PyVal.optAttr "fixed_header" (some (view h.toPy)) ++ l) root h
      (by ksy_simp []) (by ksy_simp [hl])
  ksy_simp [l1]
  by_cases hp : h.padding = true
  · ksy_simp [hp, lenPadding_again]
  · ksy_simp [hp]

end Dmr.Ksy.Hytera
