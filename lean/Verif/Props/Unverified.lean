import Verif.Props.DecodersMotorola
import Verif.Props.DecodersEtsi
/-
C75: checksums and most lengths are reported, not verified. Whatever octets stand in their place, a packet is accepted as before,
and the object is the same but for the attributes that report these octets. (The lengths of three Hytera protocols are used:
the theorems `…_matters`.)
-/

set_option autoImplicit false

namespace Dmr.Wire

open Spec Hytera

/-- `b` with the octets from `off` on replaced by `w`. -/
def overwrite (b : Bytes) (off : Nat) (w : Bytes) : Bytes := b.take off ++ w ++ b.drop (off + w.length)

theorem overwrite_mid {p m w : Bytes} (q : Bytes) {off : Nat} (ho : p.length = off) (hw : m.length = w.length) :
    overwrite (p ++ m ++ q) off w = p ++ w ++ q := by
  subst ho
  rw [overwrite, List.append_assoc p m q, List.take_left, List.drop_append, List.drop_eq_nil_of_le (by omega), List.nil_append,
    show p.length + w.length - p.length = m.length by omega, List.drop_left]

theorem be16 (a c : UInt8) : pack f[BitVec.ofNat 16 (256 * a.toNat + c.toNat)] = [a, c] := by
  have ha := a.toNat_lt
  have hc := c.toNat_lt
  rw [pack_be16, BitVec.toNat_ofNat, Nat.mod_eq_of_lt (by omega)]
  congr 1
  · apply UInt8.toNat_inj.1; simp; omega
  · congr 1; apply UInt8.toNat_inj.1; simp

theorem nat16 (a c : UInt8) : (BitVec.ofNat 16 (256 * a.toNat + c.toNat)).toNat = 256 * a.toNat + c.toNat := by
  have ha := a.toNat_lt
  have hc := c.toNat_lt
  rw [BitVec.toNat_ofNat, Nat.mod_eq_of_lt (by omega)]

theorem overwrite16 {p q : List Fld} {n : BitVec 16} {tail : Bytes} {off : Nat} (hp : width p = 8 * off) (hq : width q % 8 = 0) (a c : UInt8) :
    overwrite (pack (p ++ f[n] ++ q) ++ tail) off [a, c] =
      pack (p ++ f[BitVec.ofNat 16 (256 * a.toNat + c.toNat)] ++ q) ++ tail := by
  have hp' : width p % 8 = 0 := by omega
  have e : ∀ n : BitVec 16, pack (p ++ f[n] ++ q) ++ tail = pack p ++ pack f[n] ++ (pack q ++ tail) := fun n => by
    rw [pack_append _ _ (by rw [width_append]; simp [width]; omega) hq, pack_append _ _ hp' (by simp [width])]
    simp
  rw [e, e, be16, overwrite_mid _ (by rw [length_pack]; omega) (by rw [length_pack]; simp [width])]

/-- The width of a list of fields. -/
macro "width_of" : tactic => `(tactic| simp [width, width_append, Ip.flds, Gps.flds, TpHead.flds, Lp.flds])

theorem C75_location (b : Bytes) (x : LocationProtocol) (a c : UInt8) (h : fromBytes LocationProtocol.read b = .ok x) :
    fromBytes LocationProtocol.read (overwrite b 2 [a, c]) = .ok { x with message_length := 256 * a.toNat + c.toNat } := by
  rw [C53_location] at h ⊢
  obtain ⟨msg, n, rest, rfl, rfl⟩ | ⟨op, n, rest, ho, rfl, rfl⟩ := h
  · refine Or.inl ⟨msg, BitVec.ofNat 16 (256 * a.toNat + c.toNat), rest, ?_, ?_⟩
    · exact overwrite16 (p := f[msg.opcode]) (q := msg.flds) rfl (by cases msg <;> width_of) a c
    · rw [Lp.message, Lp.message, nat16]
  · refine Or.inr ⟨op, BitVec.ofNat 16 (256 * a.toNat + c.toNat), rest, ho, ?_, ?_⟩
    · exact overwrite16 (p := f[op]) (q := []) (by width_of) (by width_of) a c
    · rw [unknownLocation, unknownLocation, nat16]

theorem C75_registration (b : Bytes) (x : RadioRegistrationService) (a c : UInt8)
    (h : fromBytes RadioRegistrationService.read b = .ok x) :
    fromBytes RadioRegistrationService.read (overwrite b 2 [a, c]) =
      .ok { x with message_length := 256 * a.toNat + c.toNat } := by
  rw [C53_registration] at h ⊢
  obtain ⟨msg, rest, rfl, rfl⟩ := h
  cases msg with
  | registrationAck n ip result valid =>
    refine ⟨.registrationAck (BitVec.ofNat 16 (256 * a.toNat + c.toNat)) ip result valid, rest, ?_, ?_⟩
    · exact overwrite16 (p := f[0#8, 0x80#8]) (q := ip.flds ++ f[result, valid]) (by width_of) (by width_of) a c
    · simp only [Rrs.message, nat16]
  | onlineCheckAck n ip result =>
    refine ⟨.onlineCheckAck (BitVec.ofNat 16 (256 * a.toNat + c.toNat)) ip result, rest, ?_, ?_⟩
    · exact overwrite16 (p := f[0#8, 0x82#8]) (q := ip.flds ++ f[result]) (by width_of) (by width_of) a c
    · simp only [Rrs.message, nat16]
  | other kind n ip h1 h2 =>
    refine ⟨.other kind (BitVec.ofNat 16 (256 * a.toNat + c.toNat)) ip h1 h2, rest, ?_, ?_⟩
    · exact overwrite16 (p := f[0#8, kind]) (q := ip.flds) (by width_of) (by width_of) a c
    · simp only [Rrs.message, nat16]

theorem C75_delivery (b : Bytes) (x : DataDeliveryStates) (a c : UInt8) (h : fromBytes DataDeliveryStates.read b = .ok x) :
    fromBytes DataDeliveryStates.read (overwrite b 2 [a, c]) = .ok { x with message_length := 256 * a.toNat + c.toNat } := by
  rw [C53_delivery] at h ⊢
  obtain ⟨msg, rest, rfl, rfl⟩ := h
  refine ⟨{ msg with message_length := BitVec.ofNat 16 (256 * a.toNat + c.toNat) }, rest, ?_, ?_⟩
  · exact overwrite16 (p := f[msg.reserved, msg.kind]) (q := msg.ip.flds ++ f[msg.protocol_opcode, msg.result]) (by width_of) (by width_of) a c
  · simp only [Dds.message, nat16]

theorem C75_telemetry (b : Bytes) (x : TelemetryProtocol) (a c : UInt8) (h : fromBytes TelemetryProtocol.read b = .ok x) :
    fromBytes TelemetryProtocol.read (overwrite b 2 [a, c]) = .ok { x with message_length := 256 * a.toNat + c.toNat } := by
  rw [C53_telemetry] at h ⊢
  obtain ⟨msg, n, rest, rfl, rfl⟩ | ⟨s, t, n, rest, ho, rfl, rfl⟩ := h
  · refine Or.inl ⟨msg, BitVec.ofNat 16 (256 * a.toNat + c.toNat), rest, ?_, ?_⟩
    · cases msg with
      | standardStatusRequest head => exact overwrite16 (p := f[_, _]) (q := head.flds) (by width_of) (by width_of) a c
      | standardStatusReport head result => exact overwrite16 (p := f[_, _]) (q := head.flds ++ f[result]) (by width_of) (by width_of) a c
      | extendedStatusReport head result l text ht =>
        simp only [Tp.bytes, List.append_assoc]
        exact overwrite16 (p := f[_, _]) (q := head.flds ++ f[result, l]) (by width_of) (by width_of) a c
      | remoteControlRequest head result => exact overwrite16 (p := f[_, _]) (q := head.flds ++ f[result]) (by width_of) (by width_of) a c
      | remoteControlAnswer head result => exact overwrite16 (p := f[_, _]) (q := head.flds ++ f[result]) (by width_of) (by width_of) a c
    · rw [Tp.message, Tp.message, nat16]
  · refine Or.inr ⟨s, t, BitVec.ofNat 16 (256 * a.toNat + c.toNat), rest, ho, ?_, ?_⟩
    · exact overwrite16 (p := f[s, t]) (q := []) (by width_of) (by width_of) a c
    · rw [unknownTelemetry, unknownTelemetry, nat16]

theorem C75_hrnp (b : Bytes) (x : HyteraRadioNetworkProtocol) (n0 n1 l0 l1 c0 c1 : UInt8)
    (h : fromBytes HyteraRadioNetworkProtocol.read b = .ok x) :
    fromBytes HyteraRadioNetworkProtocol.read (overwrite b 6 [n0, n1, l0, l1, c0, c1]) =
      .ok { x with packet_number := 256 * n0.toNat + n1.toNat
                   hrnp_packet_length := 256 * l0.toNat + l1.toNat
                   checksum := 256 * c0.toNat + c1.toNat } := by
  rw [C53_hrnp] at h ⊢
  obtain ⟨p, rest, rfl, rfl⟩ := h
  refine ⟨{ p with packet_number := BitVec.ofNat 16 (256 * n0.toNat + n1.toNat)
                   packet_length := BitVec.ofNat 16 (256 * l0.toNat + l1.toNat)
                   checksum := BitVec.ofNat 16 (256 * c0.toNat + c1.toNat) }, rest, ?_, ?_⟩
  · have e : ∀ n l c : BitVec 16, pack f[0x7E#8, p.version, p.block, p.opcode, p.source, p.destination, n, l, c] =
        pack f[0x7E#8, p.version, p.block, p.opcode, p.source, p.destination] ++ (pack f[n] ++ pack f[l] ++ pack f[c]) :=
      fun n l c => by
        rw [← pack_append _ _ (by width_of) (by width_of), ← pack_append _ _ (by width_of) (by width_of), ← pack_append _ _ (by width_of) (by width_of)]
        rfl
    simp only [Hrnp.bytes]
    show overwrite (pack f[0x7E#8, p.version, p.block, p.opcode, p.source, p.destination, _, _, _] ++ _ ++ rest) 6 _ =
      pack f[0x7E#8, p.version, p.block, p.opcode, p.source, p.destination, _, _, _] ++ _ ++ rest
    rw [e, e, be16, be16, be16, List.append_assoc, overwrite_mid _ (by rw [length_pack]; width_of)
      (by simp only [List.length_append, length_pack]; width_of)]
    simp
  · simp only [Hrnp.obj, nat16]

theorem byte8 (c : UInt8) : pack f[BitVec.ofNat 8 c.toNat] = [c] := by
  rw [pack_octet_value, BitVec.toNat_ofNat, Nat.mod_eq_of_lt c.toNat_lt, UInt8.ofNat_toNat]

theorem C75_frame (b : Bytes) (x : HyteraDmrApplicationProtocol) (e : Nat) (c : UInt8)
    (h : parseAt HyteraDmrApplicationProtocol.read b 0 = .ok (x, e)) :
    3 ≤ e ∧ e ≤ b.length ∧
      parseAt HyteraDmrApplicationProtocol.read (overwrite b (e - 2) [c]) 0 = .ok ({ x with checksum := c.toNat }, e) := by
  obtain ⟨f, rest, rfl, hx⟩ := (C53_frame b x).1 (by rw [fromBytes_parseAt, h]; rfl)
  have ha := f.alone rest
  rw [h, Except.ok.injEq, Prod.mk.injEq] at ha
  obtain ⟨-, rfl⟩ := ha
  have h3 := f.pos
  refine ⟨h3, by simp, ?_⟩
  let f' : AnyFrame := { f with checksum := BitVec.ofNat 8 c.toNat }
  have ef : ∀ g : AnyFrame, g.bytes = (pack f[g.reliable, g.msg.protocol] ++ g.msg.bytes) ++ pack f[g.checksum] ++ pack f[0x03#8] :=
    fun g => by
      rw [AnyFrame.bytes, List.append_assoc _ (pack f[g.checksum]), ← pack_append _ _ (by width_of) (by width_of)]
      rfl
  have hb : overwrite (f.bytes ++ rest) (f.bytes.length - 2) [c] = f'.bytes ++ rest := by
    have hl : f.bytes.length - 2 = (pack f[f.reliable, f.msg.protocol] ++ f.msg.bytes).length := by
      rw [ef f]
      simp only [List.length_append, length_pack]
      width_of
    rw [hl, ef f, ef f', List.append_assoc _ _ rest, overwrite_mid _ rfl (by rw [length_pack]; width_of),
      show f'.checksum = BitVec.ofNat 8 c.toNat from rfl, byte8, List.append_assoc _ _ rest]
  have hlen : f'.bytes.length = f.bytes.length := by
    rw [ef f, ef f']
    simp only [List.length_append, length_pack]
    width_of
    simp [f']
  have hlead : f'.obj (u16be f.bytes 0) = f'.obj (u16be f'.bytes 0) := by
    have := f'.lead_of (b := f.bytes) (q := 0) [] ?_ ?_
    · rwa [List.append_nil] at this
    · have h1 := f.u8_first []
      have h2 := f'.u8_first []
      rw [List.append_nil] at h1
      rw [h1, h2]
    · intro s t n hm
      have := AnyFrame.u8_second f.reliable s t n f.checksum []
      rw [List.append_nil] at this
      rw [← this]
      have hm' : f.msg = .telemetry s t n := hm
      rw [← hm']
  rw [hb, f'.alone rest, f'.lead, ← hlead, hlen, hx]
  have hc : (BitVec.ofNat 8 c.toNat).toNat = c.toNat := by rw [BitVec.toNat_ofNat, Nat.mod_eq_of_lt c.toNat_lt]
  simp only [AnyFrame.obj, f', hc]

/-! ### Motorola -/

theorem nat16le (a c : UInt8) : (BitVec.ofNat 16 (a.toNat + 256 * c.toNat)).toNat = a.toNat + 256 * c.toNat := by
  have ha := a.toNat_lt
  have hc := c.toNat_lt
  rw [BitVec.toNat_ofNat, Nat.mod_eq_of_lt (by omega)]

theorem le16_pack (a c : UInt8) : pack f[le16 (BitVec.ofNat 16 (a.toNat + 256 * c.toNat))] = [a, c] := by
  have ha := a.toNat_lt
  have hc := c.toNat_lt
  rw [pack_le16, nat16le]
  congr 1
  · apply UInt8.toNat_inj.1; simp
  · congr 1; apply UInt8.toNat_inj.1; rw [UInt8.toNat_ofNat', Nat.mod_eq_of_lt (by omega)]; omega

theorem overwrite16le {q : List Fld} {n : BitVec 16} {tail : Bytes} (hq : width q % 8 = 0) (a c : UInt8) :
    overwrite (pack (f[le16 n] ++ q) ++ tail) 0 [a, c] = pack (f[le16 (BitVec.ofNat 16 (a.toNat + 256 * c.toNat))] ++ q) ++ tail := by
  have e : ∀ n : BitVec 16, pack (f[le16 n] ++ q) ++ tail = [] ++ pack f[le16 n] ++ (pack q ++ tail) := fun n => by
    rw [pack_append _ _ (by simp [width]) hq]
    simp
  rw [e, e, le16_pack]
  exact overwrite_mid _ rfl (by rw [length_pack]; simp [width])

theorem C75_ars (b : Bytes) (x : Motorola.AutomaticRegistrationService) (a c : UInt8)
    (h : fromBytes Motorola.AutomaticRegistrationService.read b = .ok x) :
    fromBytes Motorola.AutomaticRegistrationService.read (overwrite b 0 [a, c]) =
      .ok { x with message_size := a.toNat + 256 * c.toNat } := by
  rw [C57_ars] at h ⊢
  obtain ⟨n, msg, rest, rfl, rfl⟩ := h
  refine ⟨BitVec.ofNat 16 (a.toNat + 256 * c.toNat), msg, rest, ?_, by rw [Ars.obj, Ars.obj, nat16le]⟩
  cases msg with
  | registration ack priority control header device user password =>
    cases header <;> simp only [Ars.bytes, List.append_assoc] <;> exact overwrite16le (by width_of) a c
  | _ => exact overwrite16le (by width_of) a c

theorem C75_motorola_text (b : Bytes) (x : Motorola.TextMessageProtocol) (a c : UInt8)
    (h : fromBytes Motorola.TextMessageProtocol.read b = .ok x) :
    fromBytes Motorola.TextMessageProtocol.read (overwrite b 0 [a, c]) =
      .ok { x with message_size := 256 * a.toNat + c.toNat } := by
  rw [C57_motorola_text] at h ⊢
  obtain ⟨n, address, msg, rest, hr, rfl, rfl⟩ := h
  refine ⟨BitVec.ofNat 16 (256 * a.toNat + c.toNat), address, msg, rest, hr, ?_, by rw [Tms.obj, Tms.obj, nat16]⟩
  simp only [Tms.bytes, List.append_assoc]
  exact overwrite16 (p := []) (q := msg.flags) rfl (by cases msg <;> simp [width, Tms.flags]) a c

/-! ### ETSI -/

theorem Flc.length_bytes (msg : Flc) (protect reserved : Bool) (feature_set : BitVec 8) :
    (msg.bytes protect reserved feature_set).length = 9 := by
  rw [Flc.bytes, length_pack]
  cases msg <;> simp [width, Flc.flds]

theorem C75_flc (b : Bytes) (x : Etsi.FullLinkControl) (c0 c1 c2 : UInt8) (h : fromBytes Etsi.FullLinkControl.read b = .ok x)
    (hop : u8 b 0 % 64 ∈ [0, 3, 4, 5, 6, 7, 8]) (hl : 12 ≤ b.length) :
    x.crc_checksum = some (slice b 9 3) ∧
      fromBytes Etsi.FullLinkControl.read (overwrite b 9 [c0, c1, c2]) = .ok { x with crc_checksum := some [c0, c1, c2] } := by
  have h' := h
  rw [Etsi.C28_supported b hop, if_neg (by omega), Except.ok.injEq] at h'
  refine ⟨by rw [← h', if_pos hl], ?_⟩
  obtain ⟨protect, reserved, feature_set, msg, last, rfl, rfl⟩ | ⟨protect, reserved, opcode, feature_set, last, ho, rfl, rfl⟩ := (C57_flc _ _).1 h
  · have h9 := msg.length_bytes protect reserved feature_set
    rw [List.length_append, h9] at hl
    cases last with
    | crc c rest =>
      refine (C57_flc _ _).2 (.inl ⟨protect, reserved, feature_set, msg, .crc ⟨[c0, c1, c2], rfl⟩ rest, ?_, rfl⟩)
      rw [FlcEnd.bytes, FlcEnd.bytes, ← List.append_assoc, overwrite_mid _ h9 c.len, List.append_assoc]
    | neither two => simp [FlcEnd.bytes, two.len] at hl
    | cs5 a c => simp [FlcEnd.bytes, length_pack, width] at hl
  · exact absurd (congrArg Etsi.FullLinkControl.specific_data h') (by simp [unknownFlc])

theorem C75_flc_embedded (b : Bytes) (x : Etsi.FullLinkControl) (c : UInt8) (h : fromBytes Etsi.FullLinkControl.read b = .ok x)
    (hop : u8 b 0 % 64 ∈ [0, 3, 4, 5, 6, 7, 8]) (hl : b.length = 10) :
    x.cs5_checksum = some (u8 b 9 / 8) ∧
      fromBytes Etsi.FullLinkControl.read (overwrite b 9 [c]) = .ok { x with cs5_checksum := some (c.toNat / 8) } := by
  have h' := h
  rw [Etsi.C28_supported b hop, if_neg (by omega), Except.ok.injEq] at h'
  refine ⟨by rw [← h', if_pos hl], ?_⟩
  obtain ⟨protect, reserved, feature_set, msg, last, rfl, rfl⟩ | ⟨protect, reserved, opcode, feature_set, last, ho, rfl, rfl⟩ := (C57_flc _ _).1 h
  · have h9 := msg.length_bytes protect reserved feature_set
    rw [List.length_append, h9] at hl
    cases last with
    | crc c rest => simp [FlcEnd.bytes, c.len] at hl; omega
    | neither two => simp [FlcEnd.bytes, two.len] at hl
    | cs5 a d =>
      have hc := c.toNat_lt
      have e : pack f[BitVec.ofNat 5 (c.toNat / 8), BitVec.ofNat 3 c.toNat] = [c] := by
        rw [pack_octet1 (by simp [width])]
        simp only [number, width, ofBitVec_v, ofBitVec_w, BitVec.toNat_ofNat]
        congr 1
        apply UInt8.toNat_inj.1
        rw [UInt8.toNat_ofNat']
        omega
      refine (C57_flc _ _).2 (.inl ⟨protect, reserved, feature_set, msg, .cs5 (BitVec.ofNat 5 (c.toNat / 8)) (BitVec.ofNat 3 c.toNat), ?_, ?_⟩)
      · have := overwrite_mid (m := pack f[a, d]) (w := [c]) [] h9 (by rw [length_pack]; simp [width])
        rw [List.append_nil, List.append_nil] at this
        rw [FlcEnd.bytes, FlcEnd.bytes, e, this]
      · simp only [Flc.message, BitVec.toNat_ofNat]
        rw [Nat.mod_eq_of_lt (by omega)]
  · exact absurd (congrArg Etsi.FullLinkControl.specific_data h') (by simp [unknownFlc])

/-- A data header with another CRC; the class for unknown formats has it in its last two octets. -/
def withCrc (crc : Bytes) : Etsi.DmrDataHeader.DataUnion → Etsi.DmrDataHeader.DataUnion
  | .dataHeaderUdt x => .dataHeaderUdt { x with crc }
  | .dataHeaderResponse x => .dataHeaderResponse { x with crc }
  | .dataHeaderUnconfirmed x => .dataHeaderUnconfirmed { x with crc }
  | .dataHeaderConfirmed x => .dataHeaderConfirmed { x with crc }
  | .dataHeaderShortDefined x => .dataHeaderShortDefined { x with crc }
  | .dataHeaderShortStatusPrecoded x => .dataHeaderShortStatusPrecoded { x with crc }
  | .dataHeaderProprietary x => .dataHeaderProprietary { x with crc }
  | .dataHeaderUndefined x => .dataHeaderUndefined ⟨x.bytedata.take 10 ++ crc⟩

theorem C75_data_header (b : Bytes) (x : Etsi.DmrDataHeader.DataUnion) (c0 c1 : UInt8) (h : Etsi.headerData b = .ok x) :
    Etsi.headerData (overwrite b 10 [c0, c1]) = .ok (withCrc [c0, c1] x) := by
  rw [C57_data_header] at h ⊢
  obtain ⟨msg, crc, rest, rfl, rfl⟩ := h
  refine ⟨msg, ⟨[c0, c1], rfl⟩, rest, ?_, ?_⟩
  · rw [Header.bytes, Header.bytes, overwrite_mid _ msg.length_flds crc.len]
  · cases msg <;> try rfl
    simp only [Header.obj, withCrc]
    rw [List.take_left' (by rw [length_pack]; width_of)]

/-! ### Data blocks -/

theorem length_overwrite {b w : Bytes} {off : Nat} (h : off + w.length ≤ b.length) : (overwrite b off w).length = b.length := by
  simp only [overwrite, List.length_append, List.length_take, List.length_drop]
  omega

theorem getElem_overwrite {b w : Bytes} {off : Nat} (h : off + w.length ≤ b.length) (i : Nat) :
    (overwrite b off w)[i]? = if i < off then b[i]? else if i < off + w.length then w[i - off]? else b[i]? := by
  have ht : (b.take off).length = off := by rw [List.length_take]; omega
  rw [overwrite, List.append_assoc]
  split
  next hi => rw [List.getElem?_append_left (by omega), List.getElem?_take_of_lt hi]
  next hi =>
    rw [List.getElem?_append_right (by omega), ht]
    split
    next hj => rw [List.getElem?_append_left (by omega)]
    next hj => rw [List.getElem?_append_right (by omega), List.getElem?_drop]; congr 1; omega

theorem u8_overwrite {b w : Bytes} {off i : Nat} (h : off + w.length ≤ b.length) (hi : i < off ∨ off + w.length ≤ i) :
    u8 (overwrite b off w) i = u8 b i := by
  simp only [u8, List.getD_eq_getElem?_getD, getElem_overwrite h]
  split
  · rfl
  · rw [if_neg (by omega)]

theorem slice_overwrite {b w : Bytes} {off q n : Nat} (h : off + w.length ≤ b.length) (hi : q + n ≤ off ∨ off + w.length ≤ q) :
    slice (overwrite b off w) q n = slice b q n := by
  refine List.ext_getElem? fun i => ?_
  simp only [slice, List.getElem?_take, List.getElem?_drop, getElem_overwrite h]
  split
  · split
    · rfl
    · rw [if_neg (by omega)]
  · rfl

theorem slice_overwritten {b w : Bytes} {off : Nat} (h : off + w.length ≤ b.length) : slice (overwrite b off w) off w.length = w := by
  rw [slice, overwrite, List.append_assoc, List.drop_left' (by rw [List.length_take]; omega), List.take_left]

theorem u8_first_two {b : Bytes} {a c : UInt8} (h : 2 ≤ b.length) :
    u8 (overwrite b 0 [a, c]) 0 = a.toNat ∧ u8 (overwrite b 0 [a, c]) 1 = c.toNat := by
  simp [u8, getElem_overwrite (b := b) (w := [a, c]) (off := 0) (by simpa using h)]

/-- An accepted packet has at least the octets of the class. -/
theorem long_enough {α : Type} {R : Rd α} {n : Nat} {parts : α → List Bytes} (hp : Etsi.Partitions R n parts) {b : Bytes} {x : α}
    (h : fromBytes R b = .ok x) : n ≤ b.length := by
  by_contra hc
  rw [(hp b).1 (by omega)] at h
  cases h

theorem still_ok {α : Type} {R : Rd α} {n : Nat} {parts : α → List Bytes} (hp : Etsi.Partitions R n parts) {b w : Bytes} {off : Nat}
    (hn : n ≤ b.length) (hw : off + w.length ≤ n) : ∃ y, fromBytes R (overwrite b off w) = .ok y := by
  obtain ⟨y, hy, -⟩ := (hp (overwrite b off w)).2 (by rw [length_overwrite (by omega)]; omega)
  exact ⟨y, hy⟩

theorem C75_UdtLastBlock (b : Bytes) (x : Etsi.DmrData.UdtLastBlock) (c0 c1 : UInt8) (h : fromBytes Etsi.DmrData.UdtLastBlock.read b = .ok x) :
    fromBytes Etsi.DmrData.UdtLastBlock.read (overwrite b 10 [c0, c1]) = .ok { x with message_crc16 := [c0, c1] } := by
  obtain ⟨hp, hf⟩ := Etsi.C26_UdtLastBlock
  have hn := long_enough hp h
  obtain ⟨y, hy⟩ := still_ok (w := [c0, c1]) (off := 10) hp hn (by simp)
  have hw : 10 + [c0, c1].length ≤ b.length := by simp; omega
  have h1 := hf _ _ h
  have h2 := hf _ _ hy
  rw [hy]
  have e := slice_overwritten (b := b) (w := [c0, c1]) (off := 10) hw
  simp only [List.length_cons, List.length_nil, Nat.zero_add, Nat.reduceAdd] at e
  rw [e] at h2
  rw [slice_overwrite hw (.inl (by decide))] at h2
  cases x; cases y
  simp only at h1 h2 ⊢
  simp [h1, h2]

theorem C75_Rate12LastBlockUnconfirmed (b : Bytes) (x : Etsi.DmrData.Rate12LastBlockUnconfirmed) (c0 c1 c2 c3 : UInt8) (h : fromBytes Etsi.DmrData.Rate12LastBlockUnconfirmed.read b = .ok x) :
    fromBytes Etsi.DmrData.Rate12LastBlockUnconfirmed.read (overwrite b 8 [c0, c1, c2, c3]) = .ok { x with message_crc32 := [c0, c1, c2, c3] } := by
  obtain ⟨hp, hf⟩ := Etsi.C26_Rate12LastBlockUnconfirmed
  have hn := long_enough hp h
  obtain ⟨y, hy⟩ := still_ok (w := [c0, c1, c2, c3]) (off := 8) hp hn (by simp)
  have hw : 8 + [c0, c1, c2, c3].length ≤ b.length := by simp; omega
  have h1 := hf _ _ h
  have h2 := hf _ _ hy
  rw [hy]
  have e := slice_overwritten (b := b) (w := [c0, c1, c2, c3]) (off := 8) hw
  simp only [List.length_cons, List.length_nil, Nat.zero_add, Nat.reduceAdd] at e
  rw [e] at h2
  rw [slice_overwrite hw (.inl (by decide))] at h2
  cases x; cases y
  simp only at h1 h2 ⊢
  simp [h1, h2]

theorem C75_Rate12LastBlockConfirmed (b : Bytes) (x : Etsi.DmrData.Rate12LastBlockConfirmed) (c0 c1 c2 c3 : UInt8) (h : fromBytes Etsi.DmrData.Rate12LastBlockConfirmed.read b = .ok x) :
    fromBytes Etsi.DmrData.Rate12LastBlockConfirmed.read (overwrite b 8 [c0, c1, c2, c3]) = .ok { x with message_crc32 := [c0, c1, c2, c3] } := by
  obtain ⟨hp, hf⟩ := Etsi.C26_Rate12LastBlockConfirmed
  have hn := long_enough hp h
  obtain ⟨y, hy⟩ := still_ok (w := [c0, c1, c2, c3]) (off := 8) hp hn (by simp)
  have hw : 8 + [c0, c1, c2, c3].length ≤ b.length := by simp; omega
  have h1 := hf _ _ h
  have h2 := hf _ _ hy
  rw [hy]
  have e := slice_overwritten (b := b) (w := [c0, c1, c2, c3]) (off := 8) hw
  simp only [List.length_cons, List.length_nil, Nat.zero_add, Nat.reduceAdd] at e
  rw [e] at h2
  rw [slice_overwrite hw (.inl (by decide)), u8_overwrite hw (.inl (by decide)), u8_overwrite hw (.inl (by decide))] at h2
  cases x; cases y
  simp only at h1 h2 ⊢
  simp [h1, h2]

theorem C75_Rate34LastBlockUnconfirmed (b : Bytes) (x : Etsi.DmrData.Rate34LastBlockUnconfirmed) (c0 c1 c2 c3 : UInt8) (h : fromBytes Etsi.DmrData.Rate34LastBlockUnconfirmed.read b = .ok x) :
    fromBytes Etsi.DmrData.Rate34LastBlockUnconfirmed.read (overwrite b 14 [c0, c1, c2, c3]) = .ok { x with message_crc32 := [c0, c1, c2, c3] } := by
  obtain ⟨hp, hf⟩ := Etsi.C26_Rate34LastBlockUnconfirmed
  have hn := long_enough hp h
  obtain ⟨y, hy⟩ := still_ok (w := [c0, c1, c2, c3]) (off := 14) hp hn (by simp)
  have hw : 14 + [c0, c1, c2, c3].length ≤ b.length := by simp; omega
  have h1 := hf _ _ h
  have h2 := hf _ _ hy
  rw [hy]
  have e := slice_overwritten (b := b) (w := [c0, c1, c2, c3]) (off := 14) hw
  simp only [List.length_cons, List.length_nil, Nat.zero_add, Nat.reduceAdd] at e
  rw [e] at h2
  rw [slice_overwrite hw (.inl (by decide))] at h2
  cases x; cases y
  simp only at h1 h2 ⊢
  simp [h1, h2]

theorem C75_Rate34LastBlockConfirmed (b : Bytes) (x : Etsi.DmrData.Rate34LastBlockConfirmed) (c0 c1 c2 c3 : UInt8) (h : fromBytes Etsi.DmrData.Rate34LastBlockConfirmed.read b = .ok x) :
    fromBytes Etsi.DmrData.Rate34LastBlockConfirmed.read (overwrite b 14 [c0, c1, c2, c3]) = .ok { x with message_crc32 := [c0, c1, c2, c3] } := by
  obtain ⟨hp, hf⟩ := Etsi.C26_Rate34LastBlockConfirmed
  have hn := long_enough hp h
  obtain ⟨y, hy⟩ := still_ok (w := [c0, c1, c2, c3]) (off := 14) hp hn (by simp)
  have hw : 14 + [c0, c1, c2, c3].length ≤ b.length := by simp; omega
  have h1 := hf _ _ h
  have h2 := hf _ _ hy
  rw [hy]
  have e := slice_overwritten (b := b) (w := [c0, c1, c2, c3]) (off := 14) hw
  simp only [List.length_cons, List.length_nil, Nat.zero_add, Nat.reduceAdd] at e
  rw [e] at h2
  rw [slice_overwrite hw (.inl (by decide)), u8_overwrite hw (.inl (by decide)), u8_overwrite hw (.inl (by decide))] at h2
  cases x; cases y
  simp only at h1 h2 ⊢
  simp [h1, h2]

theorem C75_Rate1LastBlockUnconfirmed (b : Bytes) (x : Etsi.DmrData.Rate1LastBlockUnconfirmed) (c0 c1 c2 c3 : UInt8) (h : fromBytes Etsi.DmrData.Rate1LastBlockUnconfirmed.read b = .ok x) :
    fromBytes Etsi.DmrData.Rate1LastBlockUnconfirmed.read (overwrite b 20 [c0, c1, c2, c3]) = .ok { x with message_crc32 := [c0, c1, c2, c3] } := by
  obtain ⟨hp, hf⟩ := Etsi.C26_Rate1LastBlockUnconfirmed
  have hn := long_enough hp h
  obtain ⟨y, hy⟩ := still_ok (w := [c0, c1, c2, c3]) (off := 20) hp hn (by simp)
  have hw : 20 + [c0, c1, c2, c3].length ≤ b.length := by simp; omega
  have h1 := hf _ _ h
  have h2 := hf _ _ hy
  rw [hy]
  have e := slice_overwritten (b := b) (w := [c0, c1, c2, c3]) (off := 20) hw
  simp only [List.length_cons, List.length_nil, Nat.zero_add, Nat.reduceAdd] at e
  rw [e] at h2
  rw [slice_overwrite hw (.inl (by decide))] at h2
  cases x; cases y
  simp only at h1 h2 ⊢
  simp [h1, h2]

theorem C75_Rate1LastBlockConfirmed (b : Bytes) (x : Etsi.DmrData.Rate1LastBlockConfirmed) (c0 c1 c2 c3 : UInt8) (h : fromBytes Etsi.DmrData.Rate1LastBlockConfirmed.read b = .ok x) :
    fromBytes Etsi.DmrData.Rate1LastBlockConfirmed.read (overwrite b 20 [c0, c1, c2, c3]) = .ok { x with message_crc32 := [c0, c1, c2, c3] } := by
  obtain ⟨hp, hf⟩ := Etsi.C26_Rate1LastBlockConfirmed
  have hn := long_enough hp h
  obtain ⟨y, hy⟩ := still_ok (w := [c0, c1, c2, c3]) (off := 20) hp hn (by simp)
  have hw : 20 + [c0, c1, c2, c3].length ≤ b.length := by simp; omega
  have h1 := hf _ _ h
  have h2 := hf _ _ hy
  rw [hy]
  have e := slice_overwritten (b := b) (w := [c0, c1, c2, c3]) (off := 20) hw
  simp only [List.length_cons, List.length_nil, Nat.zero_add, Nat.reduceAdd] at e
  rw [e] at h2
  rw [slice_overwrite hw (.inl (by decide)), u8_overwrite hw (.inl (by decide)), u8_overwrite hw (.inl (by decide))] at h2
  cases x; cases y
  simp only at h1 h2 ⊢
  simp [h1, h2]

theorem C75_Rate12Confirmed_crc9 (b : Bytes) (x : Etsi.DmrData.Rate12Confirmed) (crc : Nat) (hc : crc < 512)
    (h : fromBytes Etsi.DmrData.Rate12Confirmed.read b = .ok x) :
    fromBytes Etsi.DmrData.Rate12Confirmed.read (overwrite b 0 (Etsi.serialCrc x.data_block_serial_number crc)) =
      .ok { x with crc9 := crc } := by
  obtain ⟨hp, hf⟩ := Etsi.C26_Rate12Confirmed
  have hn := long_enough hp h
  have h1 := hf _ _ h
  rw [Etsi.serialCrc]
  obtain ⟨y, hy⟩ := still_ok (w := [UInt8.ofNat (x.data_block_serial_number * 2 + crc / 256), UInt8.ofNat (crc % 256)]) (off := 0) hp hn (by simp)
  have hw : 0 + [UInt8.ofNat (x.data_block_serial_number * 2 + crc / 256), UInt8.ofNat (crc % 256)].length ≤ b.length := by simp; omega
  have h2 := hf _ _ hy
  have hu := u8_lt b 0
  have hs := h1.2.1
  have e1 : (UInt8.ofNat (x.data_block_serial_number * 2 + crc / 256)).toNat = x.data_block_serial_number * 2 + crc / 256 := by
    rw [UInt8.toNat_ofNat', Nat.mod_eq_of_lt (by omega)]
  have e2 : (UInt8.ofNat (crc % 256)).toNat = crc % 256 := by rw [UInt8.toNat_ofNat', Nat.mod_eq_of_lt (by omega)]
  rw [hy]
  rw [(u8_first_two (by omega)).1, (u8_first_two (by omega)).2, e1, e2, show (x.data_block_serial_number * 2 + crc / 256) / 2 =
      x.data_block_serial_number by omega, show (x.data_block_serial_number * 2 + crc / 256) % 2 * 256 + crc % 256 = crc by omega,
    slice_overwrite hw (.inr (by simp))] at h2
  clear e1 e2 hw hy hs h
  cases x; cases y
  simp only at h1 h2 ⊢
  simp [h1, h2]

theorem C75_Rate12LastBlockConfirmed_crc9 (b : Bytes) (x : Etsi.DmrData.Rate12LastBlockConfirmed) (crc : Nat) (hc : crc < 512)
    (h : fromBytes Etsi.DmrData.Rate12LastBlockConfirmed.read b = .ok x) :
    fromBytes Etsi.DmrData.Rate12LastBlockConfirmed.read (overwrite b 0 (Etsi.serialCrc x.data_block_serial_number crc)) =
      .ok { x with crc9 := crc } := by
  obtain ⟨hp, hf⟩ := Etsi.C26_Rate12LastBlockConfirmed
  have hn := long_enough hp h
  have h1 := hf _ _ h
  rw [Etsi.serialCrc]
  obtain ⟨y, hy⟩ := still_ok (w := [UInt8.ofNat (x.data_block_serial_number * 2 + crc / 256), UInt8.ofNat (crc % 256)]) (off := 0) hp hn (by simp)
  have hw : 0 + [UInt8.ofNat (x.data_block_serial_number * 2 + crc / 256), UInt8.ofNat (crc % 256)].length ≤ b.length := by simp; omega
  have h2 := hf _ _ hy
  have hu := u8_lt b 0
  have hs := h1.2.1
  have e1 : (UInt8.ofNat (x.data_block_serial_number * 2 + crc / 256)).toNat = x.data_block_serial_number * 2 + crc / 256 := by
    rw [UInt8.toNat_ofNat', Nat.mod_eq_of_lt (by omega)]
  have e2 : (UInt8.ofNat (crc % 256)).toNat = crc % 256 := by rw [UInt8.toNat_ofNat', Nat.mod_eq_of_lt (by omega)]
  rw [hy]
  rw [(u8_first_two (by omega)).1, (u8_first_two (by omega)).2, e1, e2, show (x.data_block_serial_number * 2 + crc / 256) / 2 =
      x.data_block_serial_number by omega, show (x.data_block_serial_number * 2 + crc / 256) % 2 * 256 + crc % 256 = crc by omega,
    slice_overwrite hw (.inr (by simp)), slice_overwrite hw (.inr (by simp))] at h2
  clear e1 e2 hw hy hs h
  cases x; cases y
  simp only at h1 h2 ⊢
  simp [h1, h2]

theorem C75_Rate34Confirmed_crc9 (b : Bytes) (x : Etsi.DmrData.Rate34Confirmed) (crc : Nat) (hc : crc < 512)
    (h : fromBytes Etsi.DmrData.Rate34Confirmed.read b = .ok x) :
    fromBytes Etsi.DmrData.Rate34Confirmed.read (overwrite b 0 (Etsi.serialCrc x.data_block_serial_number crc)) =
      .ok { x with crc9 := crc } := by
  obtain ⟨hp, hf⟩ := Etsi.C26_Rate34Confirmed
  have hn := long_enough hp h
  have h1 := hf _ _ h
  rw [Etsi.serialCrc]
  obtain ⟨y, hy⟩ := still_ok (w := [UInt8.ofNat (x.data_block_serial_number * 2 + crc / 256), UInt8.ofNat (crc % 256)]) (off := 0) hp hn (by simp)
  have hw : 0 + [UInt8.ofNat (x.data_block_serial_number * 2 + crc / 256), UInt8.ofNat (crc % 256)].length ≤ b.length := by simp; omega
  have h2 := hf _ _ hy
  have hu := u8_lt b 0
  have hs := h1.2.1
  have e1 : (UInt8.ofNat (x.data_block_serial_number * 2 + crc / 256)).toNat = x.data_block_serial_number * 2 + crc / 256 := by
    rw [UInt8.toNat_ofNat', Nat.mod_eq_of_lt (by omega)]
  have e2 : (UInt8.ofNat (crc % 256)).toNat = crc % 256 := by rw [UInt8.toNat_ofNat', Nat.mod_eq_of_lt (by omega)]
  rw [hy]
  rw [(u8_first_two (by omega)).1, (u8_first_two (by omega)).2, e1, e2, show (x.data_block_serial_number * 2 + crc / 256) / 2 =
      x.data_block_serial_number by omega, show (x.data_block_serial_number * 2 + crc / 256) % 2 * 256 + crc % 256 = crc by omega,
    slice_overwrite hw (.inr (by simp))] at h2
  clear e1 e2 hw hy hs h
  cases x; cases y
  simp only at h1 h2 ⊢
  simp [h1, h2]

theorem C75_Rate34LastBlockConfirmed_crc9 (b : Bytes) (x : Etsi.DmrData.Rate34LastBlockConfirmed) (crc : Nat) (hc : crc < 512)
    (h : fromBytes Etsi.DmrData.Rate34LastBlockConfirmed.read b = .ok x) :
    fromBytes Etsi.DmrData.Rate34LastBlockConfirmed.read (overwrite b 0 (Etsi.serialCrc x.data_block_serial_number crc)) =
      .ok { x with crc9 := crc } := by
  obtain ⟨hp, hf⟩ := Etsi.C26_Rate34LastBlockConfirmed
  have hn := long_enough hp h
  have h1 := hf _ _ h
  rw [Etsi.serialCrc]
  obtain ⟨y, hy⟩ := still_ok (w := [UInt8.ofNat (x.data_block_serial_number * 2 + crc / 256), UInt8.ofNat (crc % 256)]) (off := 0) hp hn (by simp)
  have hw : 0 + [UInt8.ofNat (x.data_block_serial_number * 2 + crc / 256), UInt8.ofNat (crc % 256)].length ≤ b.length := by simp; omega
  have h2 := hf _ _ hy
  have hu := u8_lt b 0
  have hs := h1.2.1
  have e1 : (UInt8.ofNat (x.data_block_serial_number * 2 + crc / 256)).toNat = x.data_block_serial_number * 2 + crc / 256 := by
    rw [UInt8.toNat_ofNat', Nat.mod_eq_of_lt (by omega)]
  have e2 : (UInt8.ofNat (crc % 256)).toNat = crc % 256 := by rw [UInt8.toNat_ofNat', Nat.mod_eq_of_lt (by omega)]
  rw [hy]
  rw [(u8_first_two (by omega)).1, (u8_first_two (by omega)).2, e1, e2, show (x.data_block_serial_number * 2 + crc / 256) / 2 =
      x.data_block_serial_number by omega, show (x.data_block_serial_number * 2 + crc / 256) % 2 * 256 + crc % 256 = crc by omega,
    slice_overwrite hw (.inr (by simp)), slice_overwrite hw (.inr (by simp))] at h2
  clear e1 e2 hw hy hs h
  cases x; cases y
  simp only at h1 h2 ⊢
  simp [h1, h2]

theorem C75_Rate1Confirmed_crc9 (b : Bytes) (x : Etsi.DmrData.Rate1Confirmed) (crc : Nat) (hc : crc < 512)
    (h : fromBytes Etsi.DmrData.Rate1Confirmed.read b = .ok x) :
    fromBytes Etsi.DmrData.Rate1Confirmed.read (overwrite b 0 (Etsi.serialCrc x.data_block_serial_number crc)) =
      .ok { x with crc9 := crc } := by
  obtain ⟨hp, hf⟩ := Etsi.C26_Rate1Confirmed
  have hn := long_enough hp h
  have h1 := hf _ _ h
  rw [Etsi.serialCrc]
  obtain ⟨y, hy⟩ := still_ok (w := [UInt8.ofNat (x.data_block_serial_number * 2 + crc / 256), UInt8.ofNat (crc % 256)]) (off := 0) hp hn (by simp)
  have hw : 0 + [UInt8.ofNat (x.data_block_serial_number * 2 + crc / 256), UInt8.ofNat (crc % 256)].length ≤ b.length := by simp; omega
  have h2 := hf _ _ hy
  have hu := u8_lt b 0
  have hs := h1.2.1
  have e1 : (UInt8.ofNat (x.data_block_serial_number * 2 + crc / 256)).toNat = x.data_block_serial_number * 2 + crc / 256 := by
    rw [UInt8.toNat_ofNat', Nat.mod_eq_of_lt (by omega)]
  have e2 : (UInt8.ofNat (crc % 256)).toNat = crc % 256 := by rw [UInt8.toNat_ofNat', Nat.mod_eq_of_lt (by omega)]
  rw [hy]
  rw [(u8_first_two (by omega)).1, (u8_first_two (by omega)).2, e1, e2, show (x.data_block_serial_number * 2 + crc / 256) / 2 =
      x.data_block_serial_number by omega, show (x.data_block_serial_number * 2 + crc / 256) % 2 * 256 + crc % 256 = crc by omega,
    slice_overwrite hw (.inr (by simp))] at h2
  clear e1 e2 hw hy hs h
  cases x; cases y
  simp only at h1 h2 ⊢
  simp [h1, h2]

theorem C75_Rate1LastBlockConfirmed_crc9 (b : Bytes) (x : Etsi.DmrData.Rate1LastBlockConfirmed) (crc : Nat) (hc : crc < 512)
    (h : fromBytes Etsi.DmrData.Rate1LastBlockConfirmed.read b = .ok x) :
    fromBytes Etsi.DmrData.Rate1LastBlockConfirmed.read (overwrite b 0 (Etsi.serialCrc x.data_block_serial_number crc)) =
      .ok { x with crc9 := crc } := by
  obtain ⟨hp, hf⟩ := Etsi.C26_Rate1LastBlockConfirmed
  have hn := long_enough hp h
  have h1 := hf _ _ h
  rw [Etsi.serialCrc]
  obtain ⟨y, hy⟩ := still_ok (w := [UInt8.ofNat (x.data_block_serial_number * 2 + crc / 256), UInt8.ofNat (crc % 256)]) (off := 0) hp hn (by simp)
  have hw : 0 + [UInt8.ofNat (x.data_block_serial_number * 2 + crc / 256), UInt8.ofNat (crc % 256)].length ≤ b.length := by simp; omega
  have h2 := hf _ _ hy
  have hu := u8_lt b 0
  have hs := h1.2.1
  have e1 : (UInt8.ofNat (x.data_block_serial_number * 2 + crc / 256)).toNat = x.data_block_serial_number * 2 + crc / 256 := by
    rw [UInt8.toNat_ofNat', Nat.mod_eq_of_lt (by omega)]
  have e2 : (UInt8.ofNat (crc % 256)).toNat = crc % 256 := by rw [UInt8.toNat_ofNat', Nat.mod_eq_of_lt (by omega)]
  rw [hy]
  rw [(u8_first_two (by omega)).1, (u8_first_two (by omega)).2, e1, e2, show (x.data_block_serial_number * 2 + crc / 256) / 2 =
      x.data_block_serial_number by omega, show (x.data_block_serial_number * 2 + crc / 256) % 2 * 256 + crc % 256 = crc by omega,
    slice_overwrite hw (.inr (by simp)), slice_overwrite hw (.inr (by simp))] at h2
  clear e1 e2 hw hy hs h
  cases x; cases y
  simp only at h1 h2 ⊢
  simp [h1, h2]

/-! ### Rejected packets -/

theorem overwrite_back {b w : Bytes} {off : Nat} (h : off + w.length ≤ b.length) :
    overwrite (overwrite b off w) off (slice b off w.length) = b := by
  have hs : (slice b off w.length).length = w.length := length_slice b off w.length h
  refine List.ext_getElem? fun i => ?_
  rw [getElem_overwrite (by rw [hs, length_overwrite h]; exact h), hs, getElem_overwrite h]
  split
  · rfl
  · split
    · rw [slice, List.getElem?_take_of_lt (by omega), List.getElem?_drop]; congr 1; omega
    · rfl

/-- Where octets can be replaced in every accepted packet, no packet was rejected because of them. -/
theorem C75_rejected {α : Type} (R : Rd α) (off n : Nat)
    (hR : ∀ (b : Bytes) (x : α) (w : Bytes), w.length = n → fromBytes R b = .ok x → ∃ y, fromBytes R (overwrite b off w) = .ok y)
    (b w : Bytes) (hw : w.length = n) (hl : off + n ≤ b.length) :
    (∃ e, fromBytes R b = .error e) ↔ ∃ e, fromBytes R (overwrite b off w) = .error e := by
  subst hw
  constructor
  · rintro ⟨e, h⟩
    cases h' : fromBytes R (overwrite b off w) with
    | error e' => exact ⟨e', rfl⟩
    | ok y =>
      obtain ⟨z, hz⟩ := hR _ _ (slice b off w.length) (length_slice b off w.length hl) h'
      rw [overwrite_back hl, h] at hz
      cases hz
  · rintro ⟨e, h⟩
    cases h' : fromBytes R b with
    | error e' => exact ⟨e', rfl⟩
    | ok y =>
      obtain ⟨z, hz⟩ := hR _ _ w rfl h'
      rw [h] at hz
      cases hz

/-- For example, a bad checksum is never the reason why an HRNP packet is rejected. -/
theorem C75_hrnp_rejected (b : Bytes) (n0 n1 l0 l1 c0 c1 : UInt8) (hl : 12 ≤ b.length) :
    (∃ e, fromBytes HyteraRadioNetworkProtocol.read b = .error e) ↔
      ∃ e, fromBytes HyteraRadioNetworkProtocol.read (overwrite b 6 [n0, n1, l0, l1, c0, c1]) = .error e := by
  refine C75_rejected _ 6 6 (fun b x w hw h => ?_) b _ rfl hl
  match w, hw with
  | [n0, n1, l0, l1, c0, c1], _ => exact ⟨_, C75_hrnp b x n0 n1 l0 l1 c0 c1 h⟩

/-! ### Concrete packets -/

/-- A location request of eight octets whose length claims 65534. -/
example : ∃ x : LocationProtocol, fromBytes LocationProtocol.read [0xA0, 1, 0, 8, 0, 0, 0, 1, 10, 0, 0, 80] = .ok x ∧
    fromBytes LocationProtocol.read [0xA0, 1, 0xFF, 0xFE, 0, 0, 0, 1, 10, 0, 0, 80] = .ok { x with message_length := 0xFFFE } ∧
    x.data ≠ none :=
  ⟨_, by rfl, C75_location [0xA0, 1, 0, 8, 0, 0, 0, 1, 10, 0, 0, 80] _ 0xFF 0xFE (by rfl), by decide +kernel⟩

example : ∃ x : RadioRegistrationService, fromBytes RadioRegistrationService.read [0, 0x82, 0, 5, 10, 0, 0, 80, 0] = .ok x ∧
    fromBytes RadioRegistrationService.read [0, 0x82, 1, 2, 10, 0, 0, 80, 0] = .ok { x with message_length := 258 } :=
  ⟨_, by rfl, C75_registration [0, 0x82, 0, 5, 10, 0, 0, 80, 0] _ 1 2 (by rfl)⟩

/-- A text message in a frame: the checksum (octet before the last) is whatever it is. -/
example : ∃ x : HyteraDmrApplicationProtocol,
    parseAt HyteraDmrApplicationProtocol.read [0x11, 0, 3, 0, 4, 10, 0, 0, 80, 0x21, 3] 0 = .ok (x, 11) ∧
    parseAt HyteraDmrApplicationProtocol.read [0x11, 0, 3, 0, 4, 10, 0, 0, 80, 0x99, 3] 0 = .ok ({ x with checksum := 0x99 }, 11) :=
  ⟨_, by rfl, (C75_frame [0x11, 0, 3, 0, 4, 10, 0, 0, 80, 0x21, 3] _ 11 0x99 (by rfl)).2.2⟩

example : ∃ x : HyteraRadioNetworkProtocol,
    fromBytes HyteraRadioNetworkProtocol.read [0x7E, 4, 0, 0xFE, 0x20, 0x10, 0, 0, 0, 12, 0x60, 0xE1] = .ok x ∧
    fromBytes HyteraRadioNetworkProtocol.read [0x7E, 4, 0, 0xFE, 0x20, 0x10, 1, 2, 3, 4, 5, 6] =
      .ok { x with packet_number := 258, hrnp_packet_length := 772, checksum := 1286 } :=
  ⟨_, by rfl, C75_hrnp [0x7E, 4, 0, 0xFE, 0x20, 0x10, 0, 0, 0, 12, 0x60, 0xE1] _ 1 2 3 4 5 6 (by rfl)⟩

example : ∃ x : Motorola.TextMessageProtocol,
    fromBytes Motorola.TextMessageProtocol.read [0, 8, 0xC0, 0, 0x81, 0x04, 0x48, 0, 0x69, 0] = .ok x ∧
    fromBytes Motorola.TextMessageProtocol.read [1, 1, 0xC0, 0, 0x81, 0x04, 0x48, 0, 0x69, 0] = .ok { x with message_size := 257 } :=
  ⟨_, by rfl, C75_motorola_text [0, 8, 0xC0, 0, 0x81, 0x04, 0x48, 0, 0x69, 0] _ 1 1 (by rfl)⟩

example : ∃ x : Etsi.FullLinkControl,
    fromBytes Etsi.FullLinkControl.read [0, 0, 0x20, 0, 0, 9, 0x23, 0x29, 0x44, 1, 2, 3] = .ok x ∧ x.crc_checksum = some [1, 2, 3] ∧
    fromBytes Etsi.FullLinkControl.read [0, 0, 0x20, 0, 0, 9, 0x23, 0x29, 0x44, 7, 8, 9] =
      .ok { x with crc_checksum := some [7, 8, 9] } :=
  ⟨_, by rfl, C75_flc [0, 0, 0x20, 0, 0, 9, 0x23, 0x29, 0x44, 1, 2, 3] _ 7 8 9 (by rfl) (by decide) (by decide)⟩

/-! ### Lengths that matter -/

/-- A data slice of a file transfer: with another length the file data is shorter, or the packet is rejected. -/
theorem C75_transmit_matters : ∃ b x,
    fromBytes DataTransmitProtocol.read b = .ok x ∧
    (∃ y, fromBytes DataTransmitProtocol.read (overwrite b 2 [0, 11]) = .ok y ∧ y.data ≠ x.data) ∧
    fromBytes DataTransmitProtocol.read (overwrite b 2 [0, 13]) = .error .eof :=
  ⟨[1, 2, 0, 12, 10, 0, 0, 1, 10, 0, 0, 2, 0, 1, 0xAA, 0xBB], _, by rfl, ⟨_, by rfl, by decide +kernel⟩, by rfl⟩

/-- A radio control message of an unknown type. -/
theorem C75_control_matters : ∃ b x,
    fromBytes RadioControlProtocol.read b = .ok x ∧
    (∃ y, fromBytes RadioControlProtocol.read (overwrite b 2 [1, 0]) = .ok y ∧ y.data ≠ x.data) ∧
    fromBytes RadioControlProtocol.read (overwrite b 2 [3, 0]) = .error .eof :=
  ⟨[5, 0, 2, 0, 7, 8], _, by rfl, ⟨_, by rfl, by decide +kernel⟩, by rfl⟩

/-- A private text message. -/
theorem C75_text_matters : ∃ b x,
    fromBytes TextMessageProtocol.read b = .ok x ∧
    (∃ y, fromBytes TextMessageProtocol.read (overwrite b 2 [0, 12]) = .ok y ∧ y.tmdata ≠ x.tmdata) ∧
    fromBytes TextMessageProtocol.read (overwrite b 2 [0, 16]) = .error .eof :=
  ⟨[0, 0xA1, 0, 14, 0, 0, 0, 7, 10, 0, 0, 80, 10, 0, 0, 81, 72, 0], _, by rfl, ⟨_, by rfl, by decide +kernel⟩, by rfl⟩

end Dmr.Wire
