import Verif.Unpack
import Verif.Spec.MotorolaEncode
import Verif.Props.MotorolaMessages
import Verif.Props.DecodersHomebrew
/-
C57: the Motorola decoders accept exactly what a radio or server (`Verif/Spec/MotorolaEncode.lean`) can send and give exactly what it
wanted to say.
-/

set_option autoImplicit false
set_option linter.unusedSimpArgs false

namespace Dmr.Wire

open Spec Motorola

/-! ### Octets -/

theorem pack_octet1 {fs : List Fld} (h : width fs = 8) : pack fs = [UInt8.ofNat (number fs)] := by
  rw [pack, h]
  simp [octets]

theorem octet_fields (x : UInt8) {fs : List Fld} (h : width fs = 8) (hf : Fields [x] 0 fs) : [x] = pack fs := by
  have := begins_of_fields (m := [x]) (n := 1) h (by simp) hf
  simpa using this

theorem pack_octet_value (x : BitVec 8) : pack f[x] = [UInt8.ofNat x.toNat] := by
  rw [pack_octet1 rfl]
  simp [number, width]

theorem short_bytes (x : Short) : x.bytes = withLength x.val := by
  rw [Short.bytes, pack_octet_value, BitVec.toNat_ofNat, Nat.mod_eq_of_lt x.len]
  rfl

theorem short_attribute (x : Short) : x.attribute = present x.val := by
  rw [Short.attribute, present]
  simp only [List.length_eq_zero_iff]

theorem number_flags (f1 f2 f3 f4 : Bool) (t : BitVec 4) :
    number f[f1, f2, f3, f4, t] = f1.toNat * 128 + f2.toNat * 64 + f3.toNat * 32 + f4.toNat * 16 + t.toNat := by
  simp only [number, width, ofBool_w, ofBool_v, ofBitVec_w, ofBitVec_v]
  omega

theorem pack_flags (f1 f2 f3 f4 : Bool) (t : BitVec 4) : pack f[f1, f2, f3, f4, t] = [headerByte f1 f2 f3 f4 t.toNat] := by
  rw [pack_octet1 rfl, number_flags, headerByte]

theorem pack_le16 (x : BitVec 16) : pack f[le16 x] = [UInt8.ofNat (x.toNat % 256), UInt8.ofNat (x.toNat / 256)] := by
  have := x.isLt
  have e : pack f[le16 x] = octets 2 (x.toNat % 256 * 256 + x.toNat / 256) := by
    simp [pack, number, width, le16]
  rw [e]
  simp only [octets, Nat.pow_one, Nat.pow_zero, Nat.div_one, Nat.zero_add]
  congr 1
  · congr 1
    omega
  · congr 1
    apply UInt8.toNat_inj.1
    rw [UInt8.toNat_ofNat', UInt8.toNat_ofNat']
    omega

theorem pack_be16 (x : BitVec 16) : pack f[x] = [UInt8.ofNat (x.toNat / 256), UInt8.ofNat x.toNat] := by
  have e : pack f[x] = octets 2 x.toNat := by simp [pack, number, width]
  rw [e]
  simp only [octets, Nat.pow_one, Nat.pow_zero, Nat.div_one, Nat.zero_add]

/-- Two octets are a number, low octet first. -/
theorem le16_found (a b : UInt8) : ∃ x : BitVec 16, [a, b] = pack f[le16 x] ∧ x.toNat = a.toNat + b.toNat * 256 := by
  have ha := a.toNat_lt
  have hb := b.toNat_lt
  have hx : (BitVec.ofNat 16 (a.toNat + b.toNat * 256)).toNat = a.toNat + b.toNat * 256 := by
    rw [BitVec.toNat_ofNat, Nat.mod_eq_of_lt (by omega)]
  refine ⟨BitVec.ofNat 16 (a.toNat + b.toNat * 256), ?_, hx⟩
  rw [pack_le16, hx]
  congr 1
  · apply UInt8.toNat_inj.1; rw [UInt8.toNat_ofNat']; omega
  · congr 1
    apply UInt8.toNat_inj.1; rw [UInt8.toNat_ofNat']; omega

theorem be16_found (a b : UInt8) : ∃ x : BitVec 16, [a, b] = pack f[x] ∧ x.toNat = a.toNat * 256 + b.toNat := by
  have ha := a.toNat_lt
  have hb := b.toNat_lt
  have hx : (BitVec.ofNat 16 (a.toNat * 256 + b.toNat)).toNat = a.toNat * 256 + b.toNat := by
    rw [BitVec.toNat_ofNat, Nat.mod_eq_of_lt (by omega)]
  refine ⟨BitVec.ofNat 16 (a.toNat * 256 + b.toNat), ?_, hx⟩
  rw [pack_be16, hx]
  congr 1
  · apply UInt8.toNat_inj.1; rw [UInt8.toNat_ofNat']; omega
  · congr 1
    apply UInt8.toNat_inj.1; rw [UInt8.toNat_ofNat']; omega

theorem type_found {t : Nat} (h : t < 16) : ∃ x : BitVec 4, x.toNat = t :=
  ⟨BitVec.ofNat 4 t, by rw [BitVec.toNat_ofNat, Nat.mod_eq_of_lt h]⟩

/-- The beginning of a registration message. -/
theorem ars_start (size : BitVec 16) (f1 f2 f3 f4 : Bool) (t : BitVec 4) (more : List Fld) (h : width more % 8 = 0) (rest : Bytes) :
    pack (le16 size :: ofBool f1 :: ofBool f2 :: ofBool f3 :: ofBool f4 :: ofBitVec t :: more) ++ rest =
      UInt8.ofNat (size.toNat % 256) :: UInt8.ofNat (size.toNat / 256) :: headerByte f1 f2 f3 f4 t.toNat :: (pack more ++ rest) := by
  have e1 := pack_append f[le16 size] (f[f1, f2, f3, f4, t] ++ more) (by simp [width]) (by rw [width_append]; simp [width]; omega)
  have e2 := pack_append f[f1, f2, f3, f4, t] more (by simp [width]) h
  simp only [List.cons_append, List.nil_append] at e1 e2
  rw [e1, e2, pack_le16, pack_flags]
  rfl

theorem size_le (size : BitVec 16) :
    (UInt8.ofNat (size.toNat % 256)).toNat + (UInt8.ofNat (size.toNat / 256)).toNat * 256 = size.toNat := by
  have := size.isLt
  rw [UInt8.toNat_ofNat', UInt8.toNat_ofNat']
  omega

theorem pack_nil : pack [] = [] := rfl

theorem second_octet (a : Bool) (n : Nat) (x : BitVec 7) (hx : x.toNat = n) : pack f[a, x] = [UInt8.ofNat (a.toNat * 128 + n)] := by
  rw [pack_octet1 rfl]
  simp [number, width, hx]

theorem top_bit (a : Bool) (n : Nat) (h : n < 128) :
    decide (128 ≤ (UInt8.ofNat (a.toNat * 128 + n)).toNat) = a ∧ (UInt8.ofNat (a.toNat * 128 + n)).toNat = a.toNat * 128 + n := by
  have e : (UInt8.ofNat (a.toNat * 128 + n)).toNat = a.toNat * 128 + n := by
    rw [UInt8.toNat_ofNat']; cases a <;> (simp only [Bool.toNat_false, Bool.toNat_true]; omega)
  refine ⟨?_, e⟩
  rw [e]
  cases a <;> simp; omega

theorem number_five (a : Bool) (e : BitVec 2) (c : BitVec 5) :
    number f[a, e, c] = a.toNat * 128 + (e.toNat * 32 + c.toNat) ∧ e.toNat * 32 + c.toNat < 128 := by
  have := e.isLt
  have := c.isLt
  simp only [number, width, ofBool_w, ofBool_v, ofBitVec_w, ofBitVec_v]
  omega

/-! ### Automatic registration service -/

theorem ars_encoder (size : BitVec 16) (msg : Ars) (rest : Bytes) :
    fromBytes AutomaticRegistrationService.read (msg.bytes size ++ rest) = .ok (msg.obj size rest) := by
  cases msg with
  | registration ack priority control header device user password =>
    rcases header with _ | h
    · rw [Ars.bytes, List.append_assoc, ars_start _ _ _ _ _ _ [] rfl]
      have e := C38_registration (UInt8.ofNat (size.toNat % 256)) (UInt8.ofNat (size.toNat / 256)) ack priority control none
        device.val user.val password.val rest device.len user.len password.len
      simp only [registrationBytes, Option.toList_none, List.nil_append, Option.isSome_none, List.append_assoc] at e
      simp only [pack_nil, List.nil_append, short_bytes, List.append_assoc]
      rw [show (0#4).toNat = 0 from rfl, e, size_le]
      simp only [Ars.obj, Ars.header, Ars.content, short_attribute, Option.map_none, Option.isSome_none]
    · rw [Ars.bytes, List.append_assoc, ars_start _ _ _ _ _ _ _ (by simp [width])]
      obtain ⟨hn, hl⟩ := number_five h.extension h.event h.encoding
      obtain ⟨t1, t2⟩ := top_bit h.extension _ hl
      have e := C38_registration (UInt8.ofNat (size.toNat % 256)) (UInt8.ofNat (size.toNat / 256)) ack priority control
        (some (UInt8.ofNat (h.extension.toNat * 128 + (h.event.toNat * 32 + h.encoding.toNat))))
        device.val user.val password.val rest device.len user.len password.len
      simp only [registrationBytes, Option.toList_some, List.nil_append, Option.isSome_some, List.append_assoc, List.cons_append] at e
      rw [pack_octet1 rfl, hn]
      simp only [List.nil_append, short_bytes, List.append_assoc, List.cons_append]
      rw [show (0#4).toNat = 0 from rfl, e, size_le]
      have l1 := h.event.isLt
      have l2 := h.encoding.isLt
      simp only [Ars.obj, Ars.header, Ars.content, short_attribute, Option.map_some, Option.isSome_some, registrationHeader, t1]
      simp only [t2]
      rw [show (h.extension.toNat * 128 + (h.event.toNat * 32 + h.encoding.toNat)) / 32 % 4 = h.event.toNat by omega,
        show (h.extension.toNat * 128 + (h.event.toNat * 32 + h.encoding.toNat)) % 32 = h.encoding.toNat by omega]
  | deregistration extension ack priority control =>
    rw [Ars.bytes, ars_start _ _ _ _ _ _ [] rfl, C38_other _ _ _ _ _ _ _ (by decide) (by decide), size_le]
    rfl
  | query extension ack priority control =>
    rw [Ars.bytes, ars_start _ _ _ _ _ _ [] rfl, C38_other _ _ _ _ _ _ _ (by decide) (by decide), size_le]
    rfl
  | acknowledgement ack priority control =>
    rw [Ars.bytes, ars_start _ _ _ _ _ _ [] rfl, C38_other _ _ _ _ _ _ _ (by decide) (by decide), size_le]
    rfl
  | accepted priority control extension refresh_time =>
    obtain ⟨t1, t2⟩ := top_bit extension refresh_time.toNat refresh_time.isLt
    rw [Ars.bytes, ars_start _ _ _ _ _ _ _ (by simp [width]), C38_other _ _ _ _ _ _ _ (by decide) (by decide), size_le,
      second_octet extension _ refresh_time rfl]
    have l := refresh_time.isLt
    simp only [List.cons_append, List.nil_append, t1]
    simp only [t2]
    rw [show (extension.toNat * 128 + refresh_time.toNat) % 128 = refresh_time.toNat by omega]
    rfl
  | refused priority control extension reason =>
    obtain ⟨t1, t2⟩ := top_bit extension reason.toNat reason.isLt
    rw [Ars.bytes, ars_start _ _ _ _ _ _ _ (by simp [width]), C38_other _ _ _ _ _ _ _ (by decide) (by decide), size_le,
      second_octet extension _ reason rfl]
    have l := reason.isLt
    simp only [List.cons_append, List.nil_append, t1]
    simp only [t2]
    rw [show (extension.toNat * 128 + reason.toNat) % 128 = reason.toNat by omega]
    rfl
  | other extension ack priority control type h =>
    have n (v : BitVec 4) (hv : v ∈ [0#4, 1#4, 4#4, 15#4]) : type.toNat ≠ v.toNat := by
      intro e
      rw [BitVec.toNat_inj.1 e] at h
      exact h hv
    have n0 : type.toNat ≠ 0 := n 0#4 (by decide)
    have n1 : type.toNat ≠ 1 := n 1#4 (by decide)
    have n4 : type.toNat ≠ 4 := n 4#4 (by decide)
    have n15 : type.toNat ≠ 15 := n 15#4 (by decide)
    rw [Ars.bytes, ars_start _ _ _ _ _ _ [] rfl, C38_other _ _ _ _ _ _ _ type.isLt n0, size_le]
    dsimp only
    rw [if_neg n1, if_neg n4, if_neg n15]
    rfl

theorem registration_content {s0 s1 : UInt8} {f1 f2 f3 f4 : Bool} {r : Bytes} {x : AutomaticRegistrationService}
    (h : fromBytes AutomaticRegistrationService.read (s0 :: s1 :: headerByte f1 f2 f3 f4 0 :: r) = .ok x) :
    ∃ d, x.pdu_content = some (.deviceRegistrationMessage d) := by
  obtain ⟨b, hbe⟩ : ∃ b : Bytes, b = s0 :: s1 :: headerByte f1 f2 f3 f4 0 :: r := ⟨_, rfl⟩
  rw [← hbe] at h
  have h2 : b.drop 2 = headerByte f1 f2 f3 f4 0 :: r := by rw [hbe]; rfl
  obtain ⟨hh, htt⟩ := ars_header (by decide) h2
  rw [fromBytes_parseAt, AutomaticRegistrationService.parses.parseAt b 0 (Nat.zero_le _)] at h
  obtain ⟨e, h⟩ := of_map_fst_ok h
  unfold AutomaticRegistrationService.spec at h
  obtain ⟨h3, h⟩ := of_upTo_ok h
  obtain ⟨c, e', hc, he', h⟩ := of_next_ok h
  cases h
  rw [Nat.zero_add, Nat.zero_add, Nat.zero_add, show bitsAt b 20 4 = 0 from htt, AutomaticRegistrationService.bodySpec, if_pos rfl] at hc
  obtain ⟨d', hc, hd'⟩ := of_as_ok hc
  exact ⟨_, hd'.symm⟩

theorem flags_octet (y : UInt8) : ∃ (a : Bool) (n : BitVec 7), [y] = pack f[a, n] :=
  ⟨flagAt [y] 0, fieldAt [y] 1 7, octet_fields y rfl (by
    simp only [Fields, ofBool_w, ofBool_v, ofBitVec_w, ofBitVec_v, toNat_flagAt, toNat_fieldAt, Nat.zero_add, and_self])⟩

theorem event_octet (y : UInt8) : ∃ (a : Bool) (e : BitVec 2) (n : BitVec 5), [y] = pack f[a, e, n] :=
  ⟨flagAt [y] 0, fieldAt [y] 1 2, fieldAt [y] 3 5, octet_fields y rfl (by
    simp only [Fields, ofBool_w, ofBool_v, ofBitVec_w, ofBitVec_v, toNat_flagAt, toNat_fieldAt, Nat.zero_add, Nat.reduceAdd, and_self])⟩

theorem ars_found {b : Bytes} {x : AutomaticRegistrationService} (h : fromBytes AutomaticRegistrationService.read b = .ok x) :
    ∃ (size : BitVec 16) (msg : Ars) (rest : Bytes), b = msg.bytes size ++ rest := by
  rcases b with _ | ⟨s0, _ | ⟨s1, _ | ⟨hb, r⟩⟩⟩
  · rw [C38_short _ (by simp)] at h; cases h
  · rw [C38_short _ (by simp)] at h; cases h
  · rw [C38_short _ (by simp)] at h; cases h
  obtain ⟨size, hsz, -⟩ := le16_found s0 s1
  rw [pack_le16] at hsz
  obtain ⟨rfl, e⟩ := List.cons.inj hsz
  obtain ⟨rfl, -⟩ := List.cons.inj e
  refine ⟨size, ?_⟩
  obtain ⟨f1, f2, f3, f4, t, ht, rfl⟩ := headerByte_surj hb
  obtain ⟨ty, rfl⟩ := type_found ht
  by_cases h0 : ty = 0#4
  · subst h0
    obtain ⟨d, hd⟩ := registration_content h
    obtain ⟨s0, s1, g1, g2, g3, ext, e, l1, l2, l3⟩ := C38_registration_accounts _ x d h hd
    generalize hh : headerByte f1 f2 f3 f4 (0#4).toNat = hb at e
    simp only [List.cons.injEq] at e
    obtain ⟨-, -, rfl, e⟩ := e
    rw [e]
    rcases ext with _ | y
    · refine ⟨.registration g1 g2 g3 none ⟨_, l1⟩ ⟨_, l2⟩ ⟨_, l3⟩, x.unparsed_data, ?_⟩
      rw [Ars.bytes, List.append_assoc, ars_start _ _ _ _ _ _ [] rfl]
      simp only [registrationBytes, short_bytes, Option.toList_none, Option.isSome_none, pack_nil, List.nil_append, List.append_assoc]
      rfl
    · obtain ⟨a, ev, n, hy⟩ := event_octet y
      refine ⟨.registration g1 g2 g3 (some ⟨a, ev, n⟩) ⟨_, l1⟩ ⟨_, l2⟩ ⟨_, l3⟩, x.unparsed_data, ?_⟩
      rw [Ars.bytes, List.append_assoc, ars_start _ _ _ _ _ _ _ (by simp [width]), ← hy]
      simp only [registrationBytes, short_bytes, Option.toList_some, Option.isSome_some, List.cons_append, List.nil_append, List.append_assoc]
      rfl
  by_cases h1 : ty = 1#4
  · subst h1
    exact ⟨.deregistration f1 f2 f3 f4, r, by rw [Ars.bytes, ars_start _ _ _ _ _ _ [] rfl]; rfl⟩
  by_cases h4 : ty = 4#4
  · subst h4
    exact ⟨.query f1 f2 f3 f4, r, by rw [Ars.bytes, ars_start _ _ _ _ _ _ [] rfl]; rfl⟩
  by_cases h15 : ty = 15#4
  · subst h15
    cases f1
    · exact ⟨.acknowledgement f2 f3 f4, r, by rw [Ars.bytes, ars_start _ _ _ _ _ _ [] rfl]; rfl⟩
    · rw [C38_other _ _ _ _ _ _ _ (by decide) (by decide)] at h
      rcases r with _ | ⟨y, r⟩
      · simp at h
      · obtain ⟨a, n, hy⟩ := flags_octet y
        cases f2
        · exact ⟨.refused f3 f4 a n, r, by rw [Ars.bytes, ars_start _ _ _ _ _ _ _ (by simp [width]), ← hy]; rfl⟩
        · exact ⟨.accepted f3 f4 a n, r, by rw [Ars.bytes, ars_start _ _ _ _ _ _ _ (by simp [width]), ← hy]; rfl⟩
  · exact ⟨.other f1 f2 f3 f4 ty (by simp [h0, h1, h4, h15]), r, by rw [Ars.bytes, ars_start _ _ _ _ _ _ [] rfl]; rfl⟩

/-- C57: `AutomaticRegistrationService.from_bytes(b)` returns `x` exactly if `b` is a message that means `x`, with any octets after
it, which are kept. -/
theorem C57_ars (b : Bytes) (x : AutomaticRegistrationService) :
    fromBytes AutomaticRegistrationService.read b = .ok x ↔
      ∃ (size : BitVec 16) (msg : Ars) (rest : Bytes), b = msg.bytes size ++ rest ∧ x = msg.obj size rest := by
  constructor
  · intro h
    obtain ⟨size, msg, rest, rfl⟩ := ars_found h
    rw [ars_encoder] at h
    exact ⟨size, msg, rest, rfl, (Except.ok.inj h).symm⟩
  · rintro ⟨size, msg, rest, rfl, rfl⟩
    exact ars_encoder size msg rest

/-! ### Text message service -/

theorem size_be (size : BitVec 16) :
    (UInt8.ofNat (size.toNat / 256)).toNat * 256 + (UInt8.ofNat size.toNat).toNat = size.toNat := by
  have := size.isLt
  rw [UInt8.toNat_ofNat', UInt8.toNat_ofNat']
  omega

theorem tms_start (size : BitVec 16) (f1 f2 f3 f4 : Bool) (t : BitVec 4) (address : Short) (body : Bytes) :
    pack (ofBitVec size :: ofBool f1 :: ofBool f2 :: ofBool f3 :: ofBool f4 :: f[t]) ++ (address.bytes ++ body) =
      tmsBytes (UInt8.ofNat (size.toNat / 256)) (UInt8.ofNat size.toNat) f1 f2 f3 f4 t.toNat address.val body := by
  have e1 := pack_append f[size] f[f1, f2, f3, f4, t] (by simp [width]) (by simp [width])
  simp only [List.cons_append, List.nil_append] at e1
  rw [e1, pack_be16, pack_flags, short_bytes]
  rfl

/-- One octet with a flag, two and five bits. -/
theorem octet125 (a : Bool) (e : BitVec 2) (c : BitVec 5) : ∃ x : UInt8, pack f[a, e, c] = [x] ∧ decide (128 ≤ x.toNat) = a ∧
    x.toNat / 32 % 4 = e.toNat ∧ x.toNat % 32 = c.toNat := by
  obtain ⟨hn, hl⟩ := number_five a e c
  obtain ⟨t1, t2⟩ := top_bit a _ hl
  have := e.isLt
  have := c.isLt
  refine ⟨_, by rw [pack_octet1 rfl, hn], t1, ?_, ?_⟩ <;> rw [t2] <;> omega

/-- One octet with five and three bits. -/
theorem octet53 (e : BitVec 5) (c : BitVec 3) : ∃ x : UInt8, pack f[e, c] = [x] ∧ x.toNat / 8 = e.toNat := by
  have := e.isLt
  have := c.isLt
  refine ⟨_, by rw [pack_octet1 rfl], ?_⟩
  simp only [number, width, ofBitVec_w, ofBitVec_v]
  rw [UInt8.toNat_ofNat']
  omega

/-- One octet with a flag, four and three bits. -/
theorem octet143 (a : Bool) (e : BitVec 4) (c : BitVec 3) : ∃ x : UInt8, pack f[a, e, c] = [x] ∧ decide (128 ≤ x.toNat) = a ∧
    x.toNat / 8 % 16 = e.toNat ∧ x.toNat % 8 = c.toNat := by
  have := e.isLt
  have := c.isLt
  obtain ⟨t1, t2⟩ := top_bit a (e.toNat * 8 + c.toNat) (by omega)
  have hn : number f[a, e, c] = a.toNat * 128 + (e.toNat * 8 + c.toNat) := by
    simp only [number, width, ofBool_w, ofBool_v, ofBitVec_w, ofBitVec_v]
    omega
  refine ⟨_, by rw [pack_octet1 rfl, hn], t1, ?_, ?_⟩ <;> rw [t2] <;> omega

theorem textHeader_bytes (h : TextHeader) : ∃ x y : UInt8, h.bytes = [x, y] ∧ textHeader x y = h.obj := by
  rcases h with ⟨r, l, e, u⟩ | ⟨r, l, a, m, e⟩
  · obtain ⟨x, hx, x1, x2, x3⟩ := octet125 false r l
    obtain ⟨y, hy, y1⟩ := octet53 e u
    refine ⟨x, y, ?_, ?_⟩
    · have := pack_append f[false, r, l] f[e, u] (by simp [width]) (by simp [width])
      rw [hx, hy] at this
      exact this
    · rw [textHeader, if_neg (by simpa using x1), x2, x3, y1]
      rfl
  · obtain ⟨x, hx, x1, x2, x3⟩ := octet125 true r l
    obtain ⟨y, hy, y1, y2, y3⟩ := octet125 a m e
    refine ⟨x, y, ?_, ?_⟩
    · have := pack_append f[true, r, l] f[a, m, e] (by simp [width]) (by simp [width])
      rw [hx, hy] at this
      exact this
    · rw [textHeader, if_pos (by simpa using x1), x2, x3, y1, y2, y3]
      rfl

theorem octets_fields (x y : UInt8) {fs : List Fld} (h : width fs = 16) (hf : Fields [x, y] 0 fs) : [x, y] = pack fs := by
  have := begins_of_fields (m := [x, y]) (n := 2) h (by simp) hf
  simpa using this

theorem flag_bit (x : UInt8) (r : Bytes) : flagAt (x :: r) 0 = decide (128 ≤ x.toNat) := by
  have hb := u8_bits (x :: r) 0 (by simp)
  have hx : bitsAt (x :: r) 0 8 = x.toNat := by rw [← hb]; rfl
  have hs := bitsAt_add (x :: r) 0 1 7 (by simp)
  have h1 := bitsAt_lt (x :: r) 1 7
  have h2 := bitsAt_lt (x :: r) 0 1
  simp only [Nat.zero_add, Nat.reduceAdd] at hs
  rw [hx] at hs
  rw [flagAt]
  rcases (show bitsAt (x :: r) 0 1 = 0 ∨ bitsAt (x :: r) 0 1 = 1 by omega) with h | h
  · rw [h] at hs ⊢
    rw [decide_eq_false (by omega)]; rfl
  · rw [h] at hs ⊢
    rw [decide_eq_true (by omega)]; rfl

theorem textHeader_found (x y : UInt8) : ∃ h : TextHeader, [x, y] = h.bytes := by
  have hfl := flag_bit x [y]
  by_cases hx : 128 ≤ x.toNat
  · refine ⟨.long (fieldAt [x, y] 1 2) (fieldAt [x, y] 3 5) (flagAt [x, y] 8) (fieldAt [x, y] 9 2) (fieldAt [x, y] 11 5),
      octets_fields x y rfl ?_⟩
    rw [decide_eq_true hx] at hfl
    simp only [Fields, ofBool_w, ofBool_v, ofBitVec_w, ofBitVec_v, ← hfl, toNat_flagAt, toNat_fieldAt, Nat.zero_add, Nat.reduceAdd, and_self]
  · refine ⟨.short (fieldAt [x, y] 1 2) (fieldAt [x, y] 3 5) (fieldAt [x, y] 8 5) (fieldAt [x, y] 13 3),
      octets_fields x y rfl ?_⟩
    rw [decide_eq_false hx] at hfl
    simp only [Fields, ofBool_w, ofBool_v, ofBitVec_w, ofBitVec_v, ← hfl, toNat_flagAt, toNat_fieldAt, Nat.zero_add, Nat.reduceAdd, and_self]

theorem ackHeader_found (x y : UInt8) : (128 ≤ x.toNat → ∃ h : AckHeader, [x, y] = h.bytes) ∧
    (¬ 128 ≤ x.toNat → ∃ h : AckHeader, [x] = h.bytes) := by
  constructor
  · intro hx
    have hfl := flag_bit x [y]
    refine ⟨.long (fieldAt [x, y] 1 2) (fieldAt [x, y] 3 5) (flagAt [x, y] 8) (fieldAt [x, y] 9 2) (fieldAt [x, y] 11 5),
      octets_fields x y rfl ?_⟩
    rw [decide_eq_true hx] at hfl
    simp only [Fields, ofBool_w, ofBool_v, ofBitVec_w, ofBitVec_v, ← hfl, toNat_flagAt, toNat_fieldAt, Nat.zero_add, Nat.reduceAdd, and_self]
  · intro hx
    have hfl := flag_bit x []
    refine ⟨.short (fieldAt [x] 1 2) (fieldAt [x] 3 5), octet_fields x rfl ?_⟩
    rw [decide_eq_false hx] at hfl
    simp only [Fields, ofBool_w, ofBool_v, ofBitVec_w, ofBitVec_v, ← hfl, toNat_flagAt, toNat_fieldAt, Nat.zero_add, Nat.reduceAdd, and_self]

theorem availability_found (x : UInt8) : ∃ h : Availability, [x] = pack f[h.extension, h.reserved, h.device] :=
  ⟨⟨flagAt [x] 0, fieldAt [x] 1 4, fieldAt [x] 5 3⟩, octet_fields x rfl (by
    simp only [Fields, ofBool_w, ofBool_v, ofBitVec_w, ofBitVec_v, toNat_flagAt, toNat_fieldAt, Nat.zero_add, Nat.reduceAdd, and_self])⟩

theorem tms_bytes (size : BitVec 16) (address : Short) (msg : Tms) (rest : Bytes) :
    msg.bytes size address ++ rest =
      tmsBytes (UInt8.ofNat (size.toNat / 256)) (UInt8.ofNat size.toNat) msg.header.extension_bit
        msg.header.acknowledgement_required msg.header.reserved msg.header.control_user_bit msg.header.pdu_type address.val
        (msg.body ++ rest) := by
  rw [Tms.bytes, List.append_assoc, List.append_assoc]
  cases msg <;> exact tms_start ..

theorem tms_encoder (size : BitVec 16) (address : Short) (msg : Tms) (rest : Bytes) (hr : msg.closed = true → rest = []) :
    fromBytes TextMessageProtocol.read (msg.bytes size address ++ rest) = .ok (msg.obj size address rest) := by
  rw [tms_bytes]
  cases msg with
  | text acknowledge reserved header s =>
    rw [hr rfl]
    rcases header with _ | h
    · have e := C39_text_plain (UInt8.ofNat (size.toNat / 256)) (UInt8.ofNat size.toNat) acknowledge reserved address.val address.len s
      simp only [Tms.body, Option.elim_none, List.nil_append, List.append_nil]
      refine e.trans ?_
      rw [size_be]
      simp only [Tms.obj, Tms.header, Tms.content, short_attribute, Option.map_none, Option.isSome_none]
    · obtain ⟨x, y, h1, h2⟩ := textHeader_bytes h
      have e := C39_text_header (UInt8.ofNat (size.toNat / 256)) (UInt8.ofNat size.toNat) acknowledge reserved address.val address.len x y s
      simp only [Tms.body, Option.elim_some, h1, List.cons_append, List.nil_append, List.append_nil]
      refine e.trans ?_
      rw [size_be, h2]
      simp only [Tms.obj, Tms.header, Tms.content, short_attribute, Option.map_some, Option.isSome_some]
  | acknowledgement reserved header =>
    have e := C39_acknowledgement (UInt8.ofNat (size.toNat / 256)) (UInt8.ofNat size.toNat) header.isSome reserved address.val address.len
      ((Tms.acknowledgement reserved header).body ++ rest)
    refine e.trans ?_
    rw [size_be]
    rcases header with _ | ⟨r, l⟩ | ⟨r, l, a, m, u⟩
    · simp only [Tms.body, Option.elim_none, List.nil_append, Option.isSome_none, Tms.obj, Tms.header, Tms.content, short_attribute,
        Option.map_none]
    · obtain ⟨x, hx, x1, x2, x3⟩ := octet125 false r l
      simp only [Tms.body, Option.elim_some, AckHeader.bytes, hx, List.cons_append, List.nil_append, Option.isSome_some]
      rw [if_neg (by simpa using x1), ackHeader, x1, x2, x3]
      simp only [Tms.obj, Tms.header, Tms.content, short_attribute, Option.map_some, Option.map_none, Option.isSome_some, AckHeader.obj]
    · obtain ⟨x, hx, x1, x2, x3⟩ := octet125 true r l
      obtain ⟨y, hy, y1, y2, y3⟩ := octet125 a m u
      have := pack_append f[true, r, l] f[a, m, u] (by simp [width]) (by simp [width])
      rw [hx, hy] at this
      simp only [List.cons_append, List.nil_append] at this
      simp only [Tms.body, Option.elim_some, AckHeader.bytes, this, List.cons_append, List.nil_append, Option.isSome_some]
      rw [if_pos (by simpa using x1), ackHeader, x1, x2, x3]
      simp only [Tms.obj, Tms.header, Tms.content, short_attribute, Option.map_some, Option.map_none, Option.isSome_some, AckHeader.obj,
        y1, y2, y3]
  | availability reserved header =>
    have e := C39_availability (UInt8.ofNat (size.toNat / 256)) (UInt8.ofNat size.toNat) header.isSome reserved address.val address.len
      ((Tms.availability reserved header).body ++ rest)
    refine e.trans ?_
    rw [size_be]
    rcases header with _ | ⟨a, r, d⟩
    · simp only [Tms.body, Option.elim_none, List.nil_append, Option.isSome_none, Tms.obj, Tms.header, Tms.content, short_attribute,
        Option.map_none]
    · obtain ⟨x, hx, x1, x2, x3⟩ := octet143 a r d
      simp only [Tms.body, Option.elim_some, hx, List.cons_append, List.nil_append, Option.isSome_some]
      rw [x1, x2, x3]
      simp only [Tms.obj, Tms.header, Tms.content, short_attribute, Option.map_some, Option.isSome_some]
  | other extension acknowledge reserved control type h =>
    have n (v : BitVec 4) (n : Nat) (hn : n = v.toNat) (hv : type.toNat = n) : type = v := BitVec.toNat_inj.1 (hv.trans hn)
    obtain ⟨h1, h2, h3⟩ := h
    have e := C39_other (UInt8.ofNat (size.toNat / 256)) (UInt8.ofNat size.toNat) extension acknowledge reserved control type.toNat
      type.isLt address.val address.len rest
      (fun ⟨c, t⟩ => h1 (by rw [c, n 0#4 0 rfl t]))
      (fun ⟨c, a, t⟩ => h2 (by rw [c, a, n 15#4 15 rfl t]))
      (fun ⟨c, a, t⟩ => h3 (by rw [c, a, n 0#4 0 rfl t]))
    refine e.trans ?_
    rw [size_be]
    simp only [Tms.obj, Tms.header, Tms.content, short_attribute]

theorem tms_found {b : Bytes} {x : TextMessageProtocol} (h : fromBytes TextMessageProtocol.read b = .ok x) :
    ∃ (size : BitVec 16) (address : Short) (msg : Tms) (rest : Bytes), (msg.closed = true → rest = []) ∧
      b = msg.bytes size address ++ rest := by
  rcases C39_short b with ⟨s0, s1, f1, f2, f3, f4, t, address, body, ht, ha, rfl⟩ | hb
  swap
  · rw [hb] at h; cases h
  obtain ⟨size, hsz, -⟩ := be16_found s0 s1
  rw [pack_be16] at hsz
  obtain ⟨rfl, e⟩ := List.cons.inj hsz
  obtain ⟨rfl, -⟩ := List.cons.inj e
  refine ⟨size, ⟨address, ha⟩, ?_⟩
  obtain ⟨ty, rfl⟩ := type_found ht
  by_cases h1 : f4 = false ∧ ty = 0#4
  · obtain ⟨rfl, rfl⟩ := h1
    obtain ⟨i1, i2⟩ := C39_text_invalid (UInt8.ofNat (size.toNat / 256)) (UInt8.ofNat size.toNat) f1 f2 f3 address ha body
    by_cases hs : f1 = true ∧ body.length < 2
    · obtain ⟨rfl, hs⟩ := hs
      have := i1 rfl hs
      rw [show (0#4).toNat = 0 from rfl, this] at h; cases h
    by_cases he : ∃ text, encUtf16le text = body.drop (if f1 then 2 else 0)
    · obtain ⟨text, he⟩ := he
      cases f1
      · refine ⟨.text f2 f3 none text, [], fun _ => rfl, ?_⟩
        rw [tms_bytes]
        simp only [Tms.body, Option.elim_none, List.nil_append, List.append_nil, he]
        rfl
      · rcases body with _ | ⟨y, _ | ⟨z, body⟩⟩
        · simp at hs
        · simp at hs
        obtain ⟨hd, hh⟩ := textHeader_found y z
        refine ⟨.text f2 f3 (some hd) text, [], fun _ => rfl, ?_⟩
        rw [tms_bytes]
        simp only [Tms.body, Option.elim_some, List.append_nil, ← hh, he]
        rfl
    · push Not at he
      have := i2 (by intro hf; by_contra hb; exact hs ⟨hf, by omega⟩) he
      rw [show (0#4).toNat = 0 from rfl, this] at h; cases h
  by_cases h2 : f4 = true ∧ f2 = false ∧ ty = 15#4
  · obtain ⟨rfl, rfl, rfl⟩ := h2
    cases f1
    · refine ⟨.acknowledgement f3 none, body, fun h => by simp [Tms.closed] at h, ?_⟩
      rw [tms_bytes]; rfl
    · have e := C39_acknowledgement (UInt8.ofNat (size.toNat / 256)) (UInt8.ofNat size.toNat) true f3 address ha body
      rw [show (15#4).toNat = 15 from rfl, e] at h
      rcases body with _ | ⟨y, r⟩
      · simp at h
      by_cases hy : 128 ≤ y.toNat
      · rcases r with _ | ⟨z, r⟩
        · simp [hy] at h
        · obtain ⟨hd, hh⟩ := (ackHeader_found y z).1 hy
          refine ⟨.acknowledgement f3 (some hd), r, fun h => by simp [Tms.closed] at h, ?_⟩
          rw [tms_bytes]
          simp only [Tms.body, Option.elim_some, ← hh]
          rfl
      · obtain ⟨hd, hh⟩ := (ackHeader_found y 0).2 hy
        refine ⟨.acknowledgement f3 (some hd), r, fun h => by simp [Tms.closed] at h, ?_⟩
        rw [tms_bytes]
        simp only [Tms.body, Option.elim_some, ← hh]
        rfl
  by_cases h3 : f4 = true ∧ f2 = true ∧ ty = 0#4
  · obtain ⟨rfl, rfl, rfl⟩ := h3
    cases f1
    · refine ⟨.availability f3 none, body, fun h => by simp [Tms.closed] at h, ?_⟩
      rw [tms_bytes]; rfl
    · have e := C39_availability (UInt8.ofNat (size.toNat / 256)) (UInt8.ofNat size.toNat) true f3 address ha body
      rw [show (0#4).toNat = 0 from rfl, e] at h
      rcases body with _ | ⟨y, r⟩
      · simp at h
      · obtain ⟨hd, hh⟩ := availability_found y
        refine ⟨.availability f3 (some hd), r, fun h => by simp [Tms.closed] at h, ?_⟩
        rw [tms_bytes]
        simp only [Tms.body, Option.elim_some, ← hh]
        rfl
  · refine ⟨.other f1 f2 f3 f4 ty ⟨fun e => h1 ?_, fun e => h2 ?_, fun e => h3 ?_⟩, body, fun h => by simp [Tms.closed] at h, ?_⟩
    · simpa using e
    · simp only [Prod.mk.injEq] at e; exact ⟨e.2.1, e.1, e.2.2⟩
    · simp only [Prod.mk.injEq] at e; exact ⟨e.2.1, e.1, e.2.2⟩
    · rw [tms_bytes]; rfl

/-- C57: Motorola's `TextMessageProtocol.from_bytes(b)` returns `x` exactly if `b` is a message that means `x`, with any octets
after it, which are kept (a text ends with the datagram). -/
theorem C57_motorola_text (b : Bytes) (x : TextMessageProtocol) :
    fromBytes TextMessageProtocol.read b = .ok x ↔
      ∃ (size : BitVec 16) (address : Short) (msg : Tms) (rest : Bytes), (msg.closed = true → rest = []) ∧
        b = msg.bytes size address ++ rest ∧ x = msg.obj size address rest := by
  constructor
  · intro h
    obtain ⟨size, address, msg, rest, hr, rfl⟩ := tms_found h
    rw [tms_encoder size address msg rest hr] at h
    exact ⟨size, address, msg, rest, hr, rfl, (Except.ok.inj h).symm⟩
  · rintro ⟨size, address, msg, rest, hr, rfl, rfl⟩
    exact tms_encoder size address msg rest hr

/-! ### Binary XML -/

theorem octet17 (a : Bool) (x : BitVec 7) : ∃ y : UInt8, pack f[a, x] = [y] ∧ y.toNat = a.toNat * 128 + x.toNat := by
  obtain ⟨-, t2⟩ := top_bit a x.toNat x.isLt
  exact ⟨_, second_octet a _ x rfl, t2⟩

/-- The octets of a number. -/
theorem varNum_bytes (n : VarNum) : ∃ (p : Bytes) (y : UInt8), n.bytes = p ++ [y] ∧ (∀ z ∈ p, 128 ≤ z.toNat) ∧ y.toNat < 128 ∧
    n.bytes.map UInt8.toNat = n.payload := by
  obtain ⟨more, last⟩ := n
  obtain ⟨y, hy, hyn⟩ := octet17 false last
  have hl := last.isLt
  rw [Bool.toNat_false, Nat.zero_mul, Nat.zero_add] at hyn
  rw [VarNum.bytes, VarNum.payload]
  dsimp only
  rw [hy]
  have hm : (∀ z ∈ more.flatMap (fun (g : BitVec 7) => pack f[true, g]), 128 ≤ z.toNat) ∧
      (more.flatMap (fun (g : BitVec 7) => pack f[true, g])).map UInt8.toNat = more.map fun g => 128 + g.toNat := by
    induction more with
    | nil => simp
    | cons g gs ih =>
      obtain ⟨z, hz, hzn⟩ := octet17 true g
      rw [Bool.toNat_true, Nat.one_mul] at hzn
      rw [List.flatMap_cons, hz, List.map_append, List.map_cons, ih.2]
      refine ⟨?_, by simp [hzn]⟩
      intro w hw
      rcases List.mem_append.1 hw with hw | hw
      · rw [List.mem_singleton.1 hw, hzn]; omega
      · exact ih.1 w hw
  exact ⟨_, y, rfl, hm.1, by omega, by rw [List.map_append, hm.2, List.map_cons, hyn, List.map_nil]⟩

theorem varBytes_varNum {b : Bytes} {q : Nat} {n : VarNum} {r : Bytes} (h : b.drop q = n.bytes ++ r) :
    varBytes b q = .ok (n.payload, q + n.bytes.length) := by
  obtain ⟨p, y, h1, h2, h3, h4⟩ := varNum_bytes n
  have hq : q < b.length := by
    by_contra hc
    rw [List.drop_eq_nil_of_le (by omega), h1] at h
    simp at h
  rw [varBytes_eq b q (by omega), if_neg (by omega), h]
  have : upToClear (n.bytes ++ r) = n.bytes := by
    rw [h1, List.append_assoc, List.singleton_append, upToClear_append p _ r h2 h3]
  rw [this, h4]

theorem upToClear_found (r : Bytes) (h : (upToClear r).length < r.length) : ∃ n : VarNum, upToClear r = n.bytes := by
  induction r with
  | nil => simp [upToClear] at h
  | cons x xs ih =>
    rw [upToClear] at h ⊢
    have hfl := flag_bit x []
    by_cases hx : x.toNat < 128
    · rw [if_pos hx]
      refine ⟨⟨[], fieldAt [x] 1 7⟩, ?_⟩
      rw [decide_eq_false (by omega)] at hfl
      rw [VarNum.bytes, List.flatMap_nil, List.nil_append]
      refine octet_fields x rfl ?_
      simp only [Fields, ofBool_w, ofBool_v, ofBitVec_w, ofBitVec_v, ← hfl, toNat_flagAt, toNat_fieldAt, Nat.zero_add, Nat.reduceAdd, and_self]
    · rw [if_neg hx] at h ⊢
      obtain ⟨n, hn⟩ := ih (by simpa using h)
      refine ⟨⟨fieldAt [x] 1 7 :: n.more, n.last⟩, ?_⟩
      rw [decide_eq_true (by omega)] at hfl
      have : [x] = pack f[true, fieldAt [x] 1 7] := by
        refine octet_fields x rfl ?_
        simp only [Fields, ofBool_w, ofBool_v, ofBitVec_w, ofBitVec_v, ← hfl, toNat_flagAt, toNat_fieldAt, Nat.zero_add, Nat.reduceAdd, and_self]
      rw [VarNum.bytes, List.flatMap_cons, ← this, hn, VarNum.bytes]
      rfl

theorem upToClear_prefix : ∀ r : Bytes, ∃ t, r = upToClear r ++ t
  | [] => ⟨[], rfl⟩
  | x :: xs => by
    obtain ⟨t, ht⟩ := upToClear_prefix xs
    rw [upToClear]
    by_cases hx : x.toNat < 128
    · rw [if_pos hx]; exact ⟨xs, rfl⟩
    · rw [if_neg hx]; exact ⟨t, by rw [List.cons_append, ← ht]⟩

theorem varBytes_found {b : Bytes} {q e : Nat} {p : List Nat} (hq : q ≤ b.length) (h : varBytes b q = .ok (p, e)) (he : e < b.length) :
    ∃ n : VarNum, b.drop q = n.bytes ++ b.drop e := by
  rw [varBytes_eq b q hq] at h
  by_cases h0 : q = b.length
  · rw [if_pos h0] at h; cases h
  rw [if_neg h0] at h
  cases h
  obtain ⟨n, hn⟩ := upToClear_found (b.drop q) (by rw [List.length_drop]; omega)
  obtain ⟨t, ht⟩ := upToClear_prefix (b.drop q)
  refine ⟨n, ?_⟩
  have hd : b.drop (q + (upToClear (b.drop q)).length) = t := drop_drop_append ht
  rw [hd, ← hn]
  exact ht

/-- The first document in `b`, if something follows it. -/
theorem document_encoder (doc : Document) (rest : Bytes) :
    MotorolaBinaryXml.MbxmlDocument.spec (doc.bytes ++ rest) 0 = .ok (doc.obj, doc.bytes.length) := by
  obtain ⟨b, hb⟩ : ∃ b : Bytes, b = doc.bytes ++ rest := ⟨_, rfl⟩
  rw [← hb]
  have hlen := congrArg List.length hb
  rw [List.length_append] at hlen
  unfold MotorolaBinaryXml.MbxmlDocument.spec
  cases doc with
  | other id h n =>
    rw [Document.bytes, pack_octet_value, List.append_assoc] at hb
    have hl : (Document.other id h n).bytes.length = 1 + n.bytes.length := by rw [Document.bytes, pack_octet_value]; simp; omega
    rw [hl] at hlen ⊢
    have hd : b.drop (0 + 1) = n.bytes ++ rest := by rw [hb]; rfl
    have h0 : u8 b 0 = id.toNat := by
      rw [hb]; show (UInt8.ofNat id.toNat).toNat = _
      rw [UInt8.toNat_ofNat', Nat.mod_eq_of_lt id.isLt]
    have h5 : id.toNat ≠ 5 := fun e => h (BitVec.toNat_inj.1 e)
    rw [upTo_ok (by omega), varBytes_varNum hd, Motorola.next_ok (by omega), h0, optPart, if_neg h5, Motorola.next_ok (by omega), Nat.zero_add]
    rfl
  | immediateRequest n el =>
    rw [Document.bytes, pack_octet_value, List.append_assoc, List.append_assoc] at hb
    have hl : (Document.immediateRequest n el).bytes.length = 0 + 1 + n.bytes.length + el.bytes.length := by
      rw [Document.bytes, pack_octet_value]; simp; omega
    rw [hl] at hlen ⊢
    have hd : b.drop (0 + 1) = n.bytes ++ (el.bytes ++ rest) := by rw [hb]; rfl
    have hd1 : b.drop (0 + 1 + n.bytes.length) = el.bytes ++ rest := drop_drop_append hd
    have h0 : u8 b 0 = 5 := by rw [hb]; rfl
    generalize hq : 0 + 1 + n.bytes.length = q at *
    have hs : MotorolaBinaryXml.LrrpElement.spec b q = .ok (el.obj, q + el.bytes.length) := by
      unfold MotorolaBinaryXml.LrrpElement.spec
      cases el with
      | value x =>
        have e : (Element.value x).bytes = 0x22 :: UInt8.ofNat x.val.length :: x.val := by
          rw [Element.bytes, pack_octet_value, short_bytes]; rfl
        rw [e] at hlen hd1 ⊢
        simp only [List.length_cons, List.cons_append] at hlen hd1 ⊢
        have d1 := drop_drop_cons hd1
        have d2 := drop_drop_cons d1
        have u1 : u8 b q = 0x22 := u8_drop hd1
        have u2 : u8 b (q + 1) = x.val.length := by
          rw [u8_drop d1, UInt8.toNat_ofNat', Nat.mod_eq_of_lt x.len]
        rw [upTo_ok (by omega), u1, MotorolaBinaryXml.LrrpElement.bodySpec, if_pos rfl, MotorolaBinaryXml.OpaqueElementValue.spec,
          upTo_ok (by omega), u2, upTo_ok (by omega), slice_drop d2, Parsed.as, Motorola.next_ok (by omega)]
        congr 2
        omega
      | octet x =>
        have e : (Element.octet x).bytes = [0x23, UInt8.ofNat x.toNat] := by
          have := pack_append f[0x23#8] f[x] (by simp [width]) (by simp [width])
          rw [pack_octet_value, pack_octet_value] at this
          exact this
        rw [e] at hlen hd1 ⊢
        simp only [List.length_cons, List.length_nil, List.cons_append, List.nil_append] at hlen hd1 ⊢
        have d1 := drop_drop_cons hd1
        have u1 : u8 b q = 0x23 := u8_drop hd1
        have hv : slice b (q + 1) 1 = pack f[x] := by rw [slice, d1, pack_octet_value]; rfl
        rw [upTo_ok (by omega), u1, MotorolaBinaryXml.LrrpElement.bodySpec, if_neg (by decide), if_pos rfl, whole, if_pos (by omega),
          MotorolaBinaryXml.Opaque1byteValue.spec, hv, Parsed.as, Motorola.next_ok (by omega)]
        rfl
      | reference m =>
        have e : (Element.reference m).bytes = 0x24 :: m.bytes := by rw [Element.bytes, pack_octet_value]; rfl
        rw [e] at hlen hd1 ⊢
        simp only [List.length_cons, List.cons_append] at hlen hd1 ⊢
        have d1 := drop_drop_cons hd1
        have u1 : u8 b q = 0x24 := u8_drop hd1
        rw [upTo_ok (by omega), u1, MotorolaBinaryXml.LrrpElement.bodySpec, if_neg (by decide), if_neg (by decide), if_pos rfl,
          MotorolaBinaryXml.ConstantDataTableReference.spec, varBytes_varNum d1, Parsed.as, Parsed.as, Motorola.next_ok (by omega)]
        congr 2
        omega
      | other token h =>
        have e : (Element.other token h).bytes = [UInt8.ofNat token.toNat] := by rw [Element.bytes, pack_octet_value]
        rw [e] at hlen hd1 ⊢
        simp only [List.length_cons, List.length_nil, List.cons_append, List.nil_append] at hlen hd1 ⊢
        have u1 : u8 b q = token.toNat := by rw [u8_drop hd1, UInt8.toNat_ofNat', Nat.mod_eq_of_lt token.isLt]
        have n (v : BitVec 8) (hv : v ∈ [0x22#8, 0x23#8, 0x24#8]) : token.toNat ≠ v.toNat := by
          intro e
          rw [BitVec.toNat_inj.1 e] at h
          exact h hv
        have n1 : token.toNat ≠ 0x22 := n 0x22#8 (by decide)
        have n2 : token.toNat ≠ 0x23 := n 0x23#8 (by decide)
        have n3 : token.toNat ≠ 0x24 := n 0x24#8 (by decide)
        rw [upTo_ok (by omega), u1, MotorolaBinaryXml.LrrpElement.bodySpec, if_neg n1, if_neg n2, if_neg n3, Motorola.next_ok (by omega)]
        rw [Element.obj]
        congr 3
        rw [resolveEnum]
        simp only [PyEnum.all, PyEnum.value, List.find?, MotorolaBinaryXml.LrrpElements.toNat]
        simp only [show (34 == token.toNat) = false by simpa using Ne.symm n1, show (35 == token.toNat) = false by simpa using Ne.symm n2,
          show (36 == token.toNat) = false by simpa using Ne.symm n3]
    rw [upTo_ok (by omega), varBytes_varNum hd, Motorola.next_ok (by omega), h0, optPart, if_pos rfl, hq, hs, Parsed.as, Motorola.next_ok (by omega)]
    rfl

theorem mbxml_encoder (doc : Document) (rest : Bytes) (hr : rest ≠ []) :
    fromBytes MotorolaBinaryXml.read (doc.bytes ++ rest) = .ok ⟨[doc.obj]⟩ := by
  rw [C37_documents, MotorolaBinaryXml.MbxmlDocument.parses.parseAt _ 0 (Nat.zero_le _), document_encoder]
  have : 0 < rest.length := List.length_pos_iff.mpr hr
  dsimp only
  rw [if_neg (by rw [List.length_append]; omega)]

theorem cons_drop {b : Bytes} {q : Nat} (h : q < b.length) : b.drop q = pack f[fieldAt b (8 * q) 8] ++ b.drop (q + 1) := by
  refine drop_of_fields rfl (by omega) ?_
  simp only [Fields, ofBitVec_w, ofBitVec_v, toNat_fieldAt, and_self]

theorem octetAt {b : Bytes} {q n : Nat} (h : q < b.length) (hn : u8 b q = n) : fieldAt b (8 * q) 8 = BitVec.ofNat 8 n := by
  rw [← hn, u8_bits b q h]; rfl

theorem element_found {b : Bytes} {q e : Nat} {x : MotorolaBinaryXml.LrrpElement}
    (h : MotorolaBinaryXml.LrrpElement.spec b q = .ok (x, e)) (he : e < b.length) :
    ∃ el : Element, b.drop q = el.bytes ++ b.drop e := by
  unfold MotorolaBinaryXml.LrrpElement.spec at h
  obtain ⟨hq, h⟩ := of_upTo_ok h
  obtain ⟨c, e', hc, he', h⟩ := of_next_ok h
  cases h
  have hb := cons_drop (b := b) (q := q) (by omega)
  unfold MotorolaBinaryXml.LrrpElement.bodySpec at hc
  by_cases h22 : u8 b q = 0x22
  · rw [if_pos h22] at hc
    obtain ⟨v, hc, -⟩ := of_as_ok hc
    unfold MotorolaBinaryXml.OpaqueElementValue.spec at hc
    obtain ⟨g1, hc⟩ := of_upTo_ok hc
    obtain ⟨g2, hc⟩ := of_upTo_ok hc
    cases hc
    have hl : (slice b (q + 1 + 1) (u8 b (q + 1))).length = u8 b (q + 1) := length_slice _ _ _ (by omega)
    refine ⟨.value ⟨slice b (q + 1 + 1) (u8 b (q + 1)), by rw [hl]; exact u8_lt _ _⟩, ?_⟩
    have hb2 := cons_drop (b := b) (q := q + 1) (by omega)
    rw [hb, hb2, octetAt (by omega) h22, octetAt (n := u8 b (q + 1)) (by omega) rfl, Element.bytes, Short.bytes,
      drop_eq_slice b (q + 1 + 1) (u8 b (q + 1))]
    simp only [hl, List.append_assoc]
  rw [if_neg h22] at hc
  by_cases h23 : u8 b q = 0x23
  · rw [if_pos h23] at hc
    obtain ⟨v, hc, -⟩ := of_as_ok hc
    obtain ⟨-, rfl, hl⟩ := of_whole_ok hc
    refine ⟨.octet (fieldAt b (8 * (q + 1)) 8), ?_⟩
    have hb2 := cons_drop (b := b) (q := q + 1) (by omega)
    rw [hb, hb2, octetAt (by omega) h23, Element.bytes, ← List.append_assoc]
    have := pack_append f[0x23#8] f[fieldAt b (8 * (q + 1)) 8] (by simp [width]) (by simp [width])
    rw [← this]
    rfl
  rw [if_neg h23] at hc
  by_cases h24 : u8 b q = 0x24
  · rw [if_pos h24] at hc
    obtain ⟨v, hc, -⟩ := of_as_ok hc
    obtain ⟨w, hc, -⟩ := of_as_ok hc
    obtain ⟨n, hn⟩ := varBytes_found (by omega) hc he
    exact ⟨.reference n, by rw [hb, octetAt (by omega) h24, Element.bytes, hn, List.append_assoc]⟩
  · rw [if_neg h24] at hc
    cases hc
    refine ⟨.other (fieldAt b (8 * q) 8) ?_, by rw [hb, Element.bytes]⟩
    have hu : (fieldAt b (8 * q) 8).toNat = u8 b q := by rw [toNat_fieldAt, u8_bits b q (by omega)]
    intro hm
    simp only [List.mem_cons, List.not_mem_nil, or_false] at hm
    rcases hm with hm | hm | hm <;> rw [hm] at hu
    · exact h22 hu.symm
    · exact h23 hu.symm
    · exact h24 hu.symm

theorem document_found {b : Bytes} {e : Nat} {x : MotorolaBinaryXml.MbxmlDocument}
    (h : MotorolaBinaryXml.MbxmlDocument.spec b 0 = .ok (x, e)) (he : e < b.length) :
    ∃ doc : Document, b = doc.bytes ++ b.drop e := by
  unfold MotorolaBinaryXml.MbxmlDocument.spec at h
  obtain ⟨hq, h⟩ := of_upTo_ok h
  obtain ⟨c, e', hc, he', h⟩ := of_next_ok h
  obtain ⟨o, e'', ho, he'', h⟩ := of_next_ok h
  cases h
  have hb := cons_drop (b := b) (q := 0) (by omega)
  rw [List.drop_zero] at hb
  unfold optPart at ho
  by_cases h5 : u8 b 0 = 5
  · rw [if_pos h5] at ho
    obtain ⟨el, ho, -⟩ := of_as_ok ho
    obtain ⟨el', hel⟩ := element_found ho he
    have : e' < b.length := by
      by_contra hc
      rw [List.drop_eq_nil_of_le (by omega)] at hel
      have := congrArg List.length hel
      rw [List.length_nil, List.length_append, List.length_drop] at this
      omega
    obtain ⟨n, hn⟩ := varBytes_found (by omega) hc this
    refine ⟨.immediateRequest n el', ?_⟩
    rw [Document.bytes, List.append_assoc, List.append_assoc, ← hel, ← hn]
    rw [octetAt (by omega) h5] at hb
    exact hb
  · rw [if_neg h5] at ho
    cases ho
    obtain ⟨n, hn⟩ := varBytes_found (by omega) hc he
    have hu : (fieldAt b (8 * 0) 8).toNat = u8 b 0 := by rw [toNat_fieldAt, u8_bits b 0 (by omega)]
    refine ⟨.other (fieldAt b (8 * 0) 8) (fun hm => ?_) n, ?_⟩
    · rw [hm] at hu; exact h5 hu.symm
    · rw [Document.bytes, List.append_assoc, ← hn]
      exact hb

/-- C57: `MotorolaBinaryXml.from_bytes(b)` returns `x` exactly if `b` is a document and at least one octet, and `x` holds just this
document: whatever follows it is ignored. -/
theorem C57_binary_xml (b : Bytes) (x : MotorolaBinaryXml) :
    fromBytes MotorolaBinaryXml.read b = .ok x ↔
      ∃ (doc : Document) (rest : Bytes), rest ≠ [] ∧ b = doc.bytes ++ rest ∧ x = ⟨[doc.obj]⟩ := by
  constructor
  · intro h
    have h' := h
    rw [C37_documents, MotorolaBinaryXml.MbxmlDocument.parses.parseAt _ 0 (Nat.zero_le _)] at h'
    rcases hd : MotorolaBinaryXml.MbxmlDocument.spec b 0 with err | ⟨d, e⟩
    · rw [hd] at h'; cases h'
    rw [hd] at h'
    dsimp only at h'
    by_cases he : e = b.length
    · rw [if_pos he] at h'; cases h'
    have hle : e ≤ b.length := by
      have hd' := hd
      unfold MotorolaBinaryXml.MbxmlDocument.spec at hd'
      obtain ⟨-, hd'⟩ := of_upTo_ok hd'
      obtain ⟨_, _, _, _, hd'⟩ := of_next_ok hd'
      obtain ⟨_, _, _, hle, hd'⟩ := of_next_ok hd'
      cases hd'
      exact hle
    obtain ⟨doc, hdoc⟩ := document_found hd (by omega)
    have hr : b.drop e ≠ [] := by
      intro hn
      have := congrArg List.length hn
      rw [List.length_drop, List.length_nil] at this
      omega
    rw [hdoc, mbxml_encoder doc _ hr] at h
    exact ⟨doc, b.drop e, hr, hdoc, (Except.ok.inj h).symm⟩
  · rintro ⟨doc, rest, hr, rfl, rfl⟩
    exact mbxml_encoder doc rest hr

-- a registration of device `12` without user and password, one octet left over
example : fromBytes AutomaticRegistrationService.read [9, 0, 0xF0, 0x20, 2, 0x31, 0x32, 0, 0, 7] =
    .ok ((Ars.registration true true true (some ⟨false, 1#2, 0#5⟩) ⟨[0x31, 0x32], by decide⟩ ⟨[], by decide⟩ ⟨[], by decide⟩).obj 9#16 [7]) :=
  (C57_ars _ _).2 ⟨9#16, .registration true true true (some ⟨false, 1#2, 0#5⟩) ⟨[0x31, 0x32], by decide⟩ ⟨[], by decide⟩ ⟨[], by decide⟩,
    [7], by decide +kernel, rfl⟩
-- its device name is cut off: no message
example (x : AutomaticRegistrationService) : fromBytes AutomaticRegistrationService.read [9, 0, 0x70, 2, 0x31] ≠ .ok x := by
  have h : fromBytes AutomaticRegistrationService.read [9, 0, 0x70, 2, 0x31] = .error .eof := by decide +kernel
  rw [h]; exact fun h => by cases h
-- the text `Hi` from nobody in particular
example : fromBytes TextMessageProtocol.read [0, 8, 0xC0, 0, 0x81, 0x04, 0x48, 0, 0x69, 0] =
    .ok ((Tms.text true false (some (.long 0#2 1#5 false 0#2 4#5)) ['H', 'i']).obj 8#16 ⟨[], by decide⟩ []) :=
  (C57_motorola_text _ _).2 ⟨8#16, ⟨[], by decide⟩, .text true false (some (.long 0#2 1#5 false 0#2 4#5)) ['H', 'i'], [],
    fun _ => rfl, by decide +kernel, rfl⟩
-- half a character: no message
example (x : TextMessageProtocol) : fromBytes TextMessageProtocol.read [0, 3, 0x40, 0, 0x48] ≠ .ok x := by
  have h : fromBytes TextMessageProtocol.read [0, 3, 0x40, 0, 0x48] = .error .unicode := by decide +kernel
  rw [h]; exact fun h => by cases h
-- an immediate request 300 octets long (as it says) with the request identifier `AB`
example : fromBytes MotorolaBinaryXml.read [5, 0x82, 0x2C, 0x22, 2, 0x41, 0x42, 0xFF] =
    .ok ⟨[(Document.immediateRequest ⟨[2#7], 0x2C#7⟩ (.value ⟨[0x41, 0x42], by decide⟩)).obj]⟩ :=
  (C57_binary_xml _ _).2 ⟨.immediateRequest ⟨[2#7], 0x2C#7⟩ (.value ⟨[0x41, 0x42], by decide⟩), [0xFF], by decide, by decide +kernel, rfl⟩

end Dmr.Wire
