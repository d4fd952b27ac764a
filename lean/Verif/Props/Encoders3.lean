import Verif.Pack
import Verif.Spec.HyteraEncode
import Verif.Props.HyteraMessages2
import Verif.Props.HyteraTransport
import Verif.Props.HyteraFrames
import Verif.Props.Streaming
/-
C52: what a Hytera transmitter writes (`Verif/Spec/HyteraEncode.lean`) is decoded to what it wanted to say.
-/

set_option linter.unusedSimpArgs false

namespace Dmr.Wire

open Spec Hytera

theorem s16be_eq (m : Bytes) (q : Nat) : s16be m q = (BitVec.ofNat 16 (u16be m q)).toInt := by
  have h1 := u8_lt m q
  have h2 := u8_lt m (q + 1)
  refine s16be_bits m q _ ?_
  rw [BitVec.toNat_ofNat, Nat.mod_eq_of_lt]
  unfold u16be
  omega

theorem ofNat_toNat_self {w : Nat} (x : BitVec w) : BitVec.ofNat w x.toNat = x := BitVec.eq_of_toNat_eq (by simp)

/-- Wherever the octets `w` lie in a stream, the class gives the object `x` and stops right after them. -/
def Decodes (r : Rd α) (w : Bytes) (x : α) : Prop :=
  ∀ before after : Bytes, parseAt r (before ++ w ++ after) before.length = .ok (x, before.length + w.length)

theorem decodes_of {r : Rd α} {spec : Bytes → Nat → Parsed α} (hl : Local AnyBuf r) (hp : Parses r spec) {w : Bytes} {x : α} (h : spec w 0 = .ok (x, w.length)) : Decodes r w x := by
  intro before after
  refine relocate hl (w := w) (tail := after) ?_ ?_
  · rw [hp.parseAt _ _ (Nat.zero_le _), h]
  · rw [List.append_assoc, List.drop_left]

/-! ### Location Protocol -/

set_option hygiene false in
/-- One kind of location message. -/
macro "lp_case" "[" xs:ident,* "]" : tactic => `(tactic| (
  simp only [Lp.opcode, Lp.flds, Ip.flds, Gps.flds, List.cons_append, List.nil_append]
  rw [← List.append_nil (pack _)]
  packed
  have h0 : u16be m 0 = _ := (u16be_bits m 0 (by omega)).trans hf.1
  rw [List.length_nil, Nat.add_zero] at hl
  simp only [LocationProtocol.spec, upTo, LocationProtocol.bodySpec, h0, Nat.zero_add, ↓reduceIte, Nat.reduceEqDiff, next, whole,
    Parsed.as, textAt]
  simp only [$[$xs:ident],*, upTo, next, textAt, RadioIp.spec, Gpsdata.spec, s16be_eq]
  simp (discharger := omega) only [if_pos, u16be_bits, u8_bits, u32be_bits, slice_bits]
  simp only [hf, Nat.reduceMul, Nat.reduceAdd, octets_ofOctets, decode_ofUtf8, decoded, ofNat_toNat_self, ↓reduceIte]
  try simp (discharger := omega) only [if_pos, if_neg]
  rw [hl]
  rfl))

theorem location_spec (msg : Lp) (message_length : BitVec 16) :
    LocationProtocol.spec (msg.bytes message_length) 0 = .ok (msg.message message_length, (msg.bytes message_length).length) := by
  unfold Lp.bytes
  cases msg
  case standardRequest => lp_case [LocationProtocol.StandardRequest.spec]
  case standardAnswer => lp_case [LocationProtocol.StandardAnswer.spec]
  case standardAnswerWithRssi => lp_case [LocationProtocol.StandardAnswerWithRssi.spec]
  case emergencyReportStopRequest => lp_case [LocationProtocol.EmergencyReportStopRequest.spec]
  case emergencyReportStopAnswer => lp_case [LocationProtocol.EmergencyReportStopAnswer.spec]
  case emergencyReport => lp_case [LocationProtocol.EmergencyReport.spec]
  case triggeredReportRequest => lp_case [LocationProtocol.TriggeredReportRequest.spec]
  case triggeredReportAnswer => lp_case [LocationProtocol.TriggeredReportAnswer.spec]
  case triggeredReport => lp_case [LocationProtocol.TriggeredReport.spec]
  case triggeredReportStopRequest => lp_case [LocationProtocol.TriggeredReportStopRequest.spec]
  case triggeredReportStopAnswer => lp_case [LocationProtocol.TriggeredReportStopAnswer.spec]
  case conditionReportRequest => lp_case [LocationProtocol.ConditionReportRequest.spec]
  case conditionReportAnswer => lp_case [LocationProtocol.ConditionReportAnswer.spec]
  case conditionReport => lp_case [LocationProtocol.ConditionReport.spec]
  case conditionReportWithRssi => lp_case [LocationProtocol.ConditionReportWithRssi.spec]
  case quickGpsStart => lp_case [LocationProtocol.ConditionQuickGpsRequest.spec, LocationProtocol.QuickGpsPayload.spec]
  case quickGpsOther request ip command h =>
    have h : command.toNat ≠ 1 := fun e => h (BitVec.eq_of_toNat_eq e)
    lp_case [LocationProtocol.ConditionQuickGpsRequest.spec]
  case quickGpsAnswer => lp_case [LocationProtocol.ConditionQuickGpsAnswer.spec]

/-- C52: location messages. -/
theorem C52_location (msg : Lp) (message_length : BitVec 16) :
    Decodes LocationProtocol.read (msg.bytes message_length) (msg.message message_length) :=
  decodes_of LocationProtocol.read_local LocationProtocol.parses (location_spec _ _)

/-! ### Data Delivery States -/

theorem delivery_spec (x : Dds) : whole 11 DataDeliveryStates.spec x.bytes 0 = .ok (x.message, x.bytes.length) := by
  unfold Dds.bytes
  simp only [Ip.flds, List.cons_append, List.nil_append]
  rw [← List.append_nil (pack _)]
  packed
  rw [List.length_nil, Nat.add_zero] at hl
  simp only [whole, DataDeliveryStates.spec, RadioIp.spec, Nat.zero_add]
  simp (discharger := omega) only [if_pos, u16be_bits, u8_bits, u32be_bits, slice_bits]
  simp only [hf, Nat.reduceMul, Nat.reduceAdd, Nat.mul_zero, octets_ofOctets]
  rw [hl]
  rfl

/-! ### Radio Registration Service -/

set_option hygiene false in
macro "rrs_case" : tactic => `(tactic| (
  simp only [Rrs.bytes, Ip.flds, List.cons_append, List.nil_append]
  rw [← List.append_nil (pack _)]
  packed
  rw [List.length_nil, Nat.add_zero] at hl
  have h0 : slice m 0 1 = [0] := slice_of_bits m 0 1 0 (by omega) hf.1
  have h1 : u8 m 1 = _ := (u8_bits m 1 (by omega)).trans hf.2.1
  have e1 : 0 + 1 ≤ m.length := by omega
  simp only [RadioRegistrationService.spec, fixedAt, List.length_cons, List.length_nil, Nat.zero_add, h0, h1, upTo, RadioIp.spec,
    ↓reduceIte, Nat.reduceEqDiff]
  simp (discharger := omega) only [if_pos, if_neg, u16be_bits, u8_bits, u32be_bits]
  simp only [hf, Nat.reduceMul, Nat.reduceAdd]
  rw [hl]
  rfl))

theorem registration_spec (x : Rrs) : RadioRegistrationService.spec x.bytes 0 = .ok (x.message, x.bytes.length) := by
  cases x
  case registrationAck => rrs_case
  case onlineCheckAck => rrs_case
  case other kind n ip g1 g2 =>
    have g1 : kind.toNat ≠ 128 := fun e => g1 (BitVec.eq_of_toNat_eq e)
    have g2 : kind.toNat ≠ 130 := fun e => g2 (BitVec.eq_of_toNat_eq e)
    rrs_case

/-! ### Telemetry -/

theorem u16be_of_bits (m : Bytes) (x y : Nat) (h : 2 ≤ m.length) (hx : bitsAt m 0 8 = x) (hy : bitsAt m 8 8 = y) :
    u16be m 0 = x * 256 + y := by
  rw [u16be, u8_bits m 0 (by omega), u8_bits m (0 + 1) (by omega), Nat.mul_zero, hx, show 8 * (0 + 1) = 8 from rfl, hy]

set_option hygiene false in
macro "tp_case" "[" xs:ident,* "]" "[" ys:ident,* "]" : tactic => `(tactic| (
  have h0 := u16be_of_bits m _ _ (by omega) hf.1 hf.2.1
  simp only [Nat.reduceMul, Nat.reduceAdd] at h0
  simp only [TelemetryProtocol.spec, upTo, TelemetryProtocol.bodySpec, h0, Nat.zero_add, Nat.reduceMul, Nat.reduceAdd, ↓reduceIte,
    Nat.reduceEqDiff, next, whole, Parsed.as]
  simp only [$[$xs:ident],*, upTo, next, textAt, RadioIp.spec]
  simp (discharger := omega) only [if_pos, u16be_bits, u8_bits, slice_bits m (4 + 10) 1]
  simp only [hf, Nat.reduceMul, Nat.reduceAdd, Nat.mul_zero, octets_ofOctets, $[$ys:ident],*]))

theorem telemetry_spec (x : Tp) (n : BitVec 16) :
    TelemetryProtocol.spec (x.bytes n) 0 = .ok (x.message n, (x.bytes n).length) := by
  cases x
  case extendedStatusReport head result k text h =>
    simp only [Tp.bytes, Tp.opcode, TpHead.flds, Ip.flds, List.cons_append, List.nil_append]
    packed
    have ht : slice m 18 k.toNat = encUtf16le text := by rw [slice, hd, ← h, List.take_length]
    have hc := (decodeUtf16le_iff _ _).mpr (Eq.refl (encUtf16le text))
    tp_case [TelemetryProtocol.ExtendedStatusReport.spec, TelemetryProtocol.VioExtendedStatus.spec] [ht, hc, decoded]
    simp (discharger := omega) only [if_pos]
    rw [hl, h]
    rfl
  all_goals
    simp only [Tp.bytes, Tp.opcode, TpHead.flds, Ip.flds, List.cons_append, List.nil_append]
    rw [← List.append_nil (pack _)]
    packed
    rw [List.length_nil, Nat.add_zero] at hl
  case standardStatusRequest => tp_case [TelemetryProtocol.StandardStatusRequest.spec] [decoded]; rw [hl]; rfl
  case standardStatusReport => tp_case [TelemetryProtocol.StandardStatusReport.spec] [decoded]; rw [hl]; rfl
  case remoteControlRequest => tp_case [TelemetryProtocol.RemoteControlRequest.spec] [decoded]; rw [hl]; rfl
  case remoteControlAnswer => tp_case [TelemetryProtocol.RemoteControlAnswer.spec] [decoded]; rw [hl]; rfl

/-! ### Data Transmit Protocol -/

theorem sizedAt_of {m c rest : Bytes} {q : Nat} {n : Int} {k : Bytes → Except PyErr γ} (hn : n = c.length)
    (h : m.drop q = c ++ rest) (hq : q ≤ m.length) : sizedAt m q n k = k c := by
  have hl := congrArg List.length h
  rw [List.length_drop, List.length_append] at hl
  have h1 : ¬ n < 0 := by omega
  have h2 : n.toNat = c.length := by omega
  have h3 : q + c.length ≤ m.length := by omega
  rw [sizedAt, if_neg h1, h2, if_pos h3, slice, h, List.take_left]

set_option hygiene false in
macro "dtp_case" "[" xs:ident,* "]" : tactic => `(tactic| (
  have h1 : u8 m 1 = _ := (u8_bits m 1 (by omega)).trans hf.2.1
  have h2 : u16be m 2 = _ := (u16be_bits m 2 (by omega)).trans hf.2.2.1
  simp only [DataTransmitProtocol.spec, upTo, DataTransmitProtocol.bodySpec, h1, h2, Nat.zero_add, ↓reduceIte, Nat.reduceEqDiff, next,
    whole, Parsed.as]
  simp only [$[$xs:ident],*, upTo, RadioIp.spec]
  simp (discharger := omega) only [if_pos, u16be_bits, u8_bits]
  simp only [hf, Nat.reduceMul, Nat.reduceAdd, Nat.mul_zero]))

theorem transmit_spec (service_type : BitVec 8) (x : Dtp) :
    DataTransmitProtocol.spec (x.bytes service_type) 0 = .ok (x.message service_type, (x.bytes service_type).length) := by
  cases x
  case request n dst src size name h =>
    simp only [Dtp.bytes, Ip.flds, List.cons_append, List.nil_append]
    packed
    have hc := (decodeUtf16le_iff _ _).mpr (Eq.refl (encUtf16le name))
    dtp_case [DataTransmitProtocol.DtpRequest.spec]
    rw [sizedAt_of (c := encUtf16le name) (rest := []) (by omega) (by rw [hd, List.append_nil]) (by omega), hc]
    simp only [decoded]
    simp (discharger := omega) only [if_pos]
    rw [hl, h, Nat.add_sub_cancel_left]
    simp only [Dtp.message, h]
    rfl
  case slice n dst src block data h =>
    simp only [Dtp.bytes, Ip.flds, List.cons_append, List.nil_append]
    packed
    dtp_case [DataTransmitProtocol.DataSliceTransmit.spec]
    rw [sizedAt_of (c := data) (rest := []) (by omega) (by rw [hd, List.append_nil]) (by omega)]
    simp (discharger := omega) only [if_pos]
    rw [hl, h, Nat.add_sub_cancel_left]
    simp only [Dtp.message, h]
    rfl
  all_goals
    simp only [Dtp.bytes, Ip.flds, List.cons_append, List.nil_append]
    rw [← List.append_nil (pack _)]
    packed
    rw [List.length_nil, Nat.add_zero] at hl
  case lastSlice => dtp_case [DataTransmitProtocol.LastDataSlice.spec]; rw [hl]; rfl
  case requestAnswer => dtp_case [DataTransmitProtocol.DtpAnswer.spec]; rw [hl]; rfl
  case sliceAnswer => dtp_case [DataTransmitProtocol.DataSliceAnswer.spec]; rw [hl]; rfl
  case lastSliceAnswer => dtp_case [DataTransmitProtocol.LastDataSliceAnswer.spec]; rw [hl]; rfl

/-! ### Radio Control Protocol -/

set_option hygiene false in
macro "rcp_start" : tactic => `(tactic| (
  have h0 : u16le m 0 = _ := u16le_bits m 0 _ (by omega) hf.1
  have h2 : u16le m 2 = _ := u16le_bits m 2 _ (by first | omega | simp only [hl]; omega) (by first | exact hf.2.1 | exact hf.2)
  simp only [BitVec.toNat_ofNat, Nat.reducePow, Nat.reduceMod] at h0
  simp only [RadioControlProtocol.spec, upTo, RadioControlProtocol.bodySpec, h0, h2, Nat.zero_add, ↓reduceIte, Nat.reduceEqDiff, next,
    whole, Parsed.as]))

set_option hygiene false in
macro "rcp_case" "[" xs:ident,* "]" : tactic => `(tactic| (
  rw [← List.append_nil (pack _)]
  packed
  rw [List.length_nil, Nat.add_zero] at hl
  rcp_start
  simp only [$[$xs:ident],*]
  simp (discharger := omega) only [if_pos, u8_bits]
  simp only [hf, Nat.reduceMul, Nat.reduceAdd]
  rw [hl]
  rfl))

theorem width_pair (s : BitVec 8 × BitVec 8) : width f[s.1, s.2] = 16 := rfl

theorem settings_at {m : Bytes} : ∀ (l : List (BitVec 8 × BitVec 8)) (q : Nat) (rest : Bytes),
    m.drop q = (l.map fun s => pack f[s.1, s.2]).flatten ++ rest →
    (List.range l.length).map (fun i => RadioControlProtocol.BroadcastConfiguration.spec m (q + 2 * i)) =
      l.map fun s => { config_operation := s.1.toNat, config_target := s.2.toNat }
  | [], _, _, _ => rfl
  | s :: l, q, rest, h => by
    rw [List.map_cons, List.flatten_cons, List.append_assoc] at h
    have hq : q ≤ m.length := by
      by_contra hc
      rw [List.drop_eq_nil_of_le (by omega)] at h
      have := congrArg List.length h
      rw [List.length_append, length_pack, width_pair, List.length_nil] at this
      omega
    have hF := fields_of_drop (by rw [width_pair]) h hq
    simp only [Fields, ofBitVec_w, ofBitVec_v] at hF
    have hlen := congrArg List.length h
    rw [List.length_drop, List.length_append, length_pack, width_pair] at hlen
    have ih := settings_at l (q + 2) rest (by
      rw [← List.drop_drop, h, show 2 = (pack f[s.1, s.2]).length from by rw [length_pack, width_pair], List.drop_left])
    rw [List.length_cons, List.range_succ_eq_map, List.map_cons, List.map_map, List.map_cons, ← ih]
    congr 1
    · simp only [RadioControlProtocol.BroadcastConfiguration.spec, Nat.mul_zero, Nat.add_zero]
      rw [u8_bits m q (by omega), u8_bits m (q + 1) (by omega), hF.1, Nat.mul_add, Nat.mul_one, hF.2.1]
    · refine List.map_congr_left fun i _ => ?_
      show RadioControlProtocol.BroadcastConfiguration.spec m (q + 2 * (i + 1)) = _
      rw [show q + 2 * (i + 1) = q + 2 + 2 * i by omega]

theorem length_settings (l : List (BitVec 8 × BitVec 8)) : ((l.map fun s => pack f[s.1, s.2]).flatten).length = 2 * l.length := by
  induction l with
  | nil => rfl
  | cons s l ih =>
    rw [List.map_cons, List.flatten_cons, List.length_append, ih, length_pack, List.length_cons, width_pair]
    omega

theorem control_spec (x : Rcp) : RadioControlProtocol.spec x.bytes 0 = .ok (x.message, x.bytes.length) := by
  cases x <;> simp only [Rcp.bytes]
  case callReply => rcp_case [RadioControlProtocol.CallReply.spec]
  case removeRadioReply => rcp_case [RadioControlProtocol.RemoveRadioReply.spec]
  case broadcastReply => rcp_case [RadioControlProtocol.BroadcastStatusConfigurationReply.spec]
  case callRequest n t target =>
    rw [← List.append_nil (pack _)]
    packed
    rw [List.length_nil, Nat.add_zero] at hl
    have h5 : u32le m 5 = _ := u32le_bits m 5 _ (by omega) hf.2.2.2
    rcp_start
    simp only [RadioControlProtocol.CallRequest.spec, h5]
    simp (discharger := omega) only [if_pos, u8_bits]
    simp only [hf, Nat.reduceMul, Nat.reduceAdd]
    rw [hl]
    rfl
  case removeRadioRequest n =>
    rw [← List.append_nil (pack _)]
    packed
    rw [List.length_nil, Nat.add_zero] at hl
    rcp_start
    simp (discharger := omega) only [if_pos]
    rw [hl]
    rfl
  case broadcastRequest n l h =>
    packed
    rw [length_settings] at hl
    rcp_start
    have h4 : u8 m 4 = l.length := by
      rw [u8_bits m 4 (by omega), hf.2.2, Nat.mod_eq_of_lt h]
    have hs := settings_at l 5 [] (by rw [hd, List.append_nil])
    simp only [RadioControlProtocol.BroadcastStatusConfigurationRequest.spec, h4, Nat.reduceAdd, hs, upTo]
    simp (discharger := omega) only [if_pos]
    rw [hl]
    rfl
  case identificationEmpty n h =>
    rw [← List.append_nil (pack _)]
    packed
    rw [List.length_nil, Nat.add_zero] at hl
    rcp_start
    simp only [RadioControlProtocol.RadioIdentificationReply.spec]
    simp (discharger := omega) only [if_pos]
    rw [hl]
    rfl
  case identificationHeader n header g1 g2 =>
    rw [← List.append_nil (pack _)]
    packed
    rw [List.length_nil, Nat.add_zero] at hl
    rcp_start
    simp only [RadioControlProtocol.RadioIdentificationReply.spec, upTo]
    have hs : slice m 4 6 = _ := (slice_bits m 4 6 (by omega)).trans (by rw [hf.2.2, octets_ofOctets])
    rw [hs]
    simp (discharger := omega) only [if_pos, if_neg]
    rw [hl]
    rfl
  case identificationText n header text h g1 g2 =>
    packed
    rcp_start
    simp only [RadioControlProtocol.RadioIdentificationReply.spec, upTo, textAt]
    have hs : slice m 4 6 = _ := (slice_bits m 4 6 (by omega)).trans (by rw [hf.2.2, octets_ofOctets])
    have ht : slice m (4 + 6) 192 = encUtf16be text := by rw [slice, hd, ← h, List.take_length]
    rw [hs, ht, (decodeUtf16be_iff _ _).mpr rfl]
    simp only [decoded]
    simp (discharger := omega) only [if_pos, if_neg]
    rw [hl, h]
    rfl
  case identification n header text h footer g1 =>
    rw [List.append_assoc]
    packed
    rw [List.length_append, h, footer.len] at hl
    rcp_start
    simp only [RadioControlProtocol.RadioIdentificationReply.spec, upTo, textAt]
    have hs : slice m 4 6 = _ := (slice_bits m 4 6 (by omega)).trans (by rw [hf.2.2, octets_ofOctets])
    have ht : slice m (4 + 6) 192 = encUtf16be text := by rw [slice, hd, ← h, List.take_left]
    have hg : slice m (4 + 198) 8 = footer.val := by
      rw [slice, show 4 + 198 = 10 + (encUtf16be text).length by rw [h], ← List.drop_drop, hd, List.drop_left]
      exact List.take_of_length_le (by rw [footer.len])
    rw [hs, ht, hg, (decodeUtf16be_iff _ _).mpr rfl]
    simp only [decoded]
    simp (discharger := omega) only [if_pos, if_neg]
    rw [hl]
    rfl
  case other st n data h hs =>
    simp only [List.mem_cons, List.not_mem_nil, or_false, not_or] at hs
    obtain ⟨g1, g2, g3, g4, g5, g6, g7⟩ := hs
    packed
    have h0 : u16le m 0 = _ := u16le_bits m 0 _ (by omega) hf.1
    have h2 : u16le m 2 = _ := u16le_bits m 2 _ (by omega) hf.2
    have ht : slice m 4 n.toNat = data := by rw [slice, hd, ← h, List.take_length]
    simp only [RadioControlProtocol.spec, upTo, RadioControlProtocol.bodySpec, h0, h2, Nat.zero_add, g1, g2, g3, g4, g5, g6, g7, ↓reduceIte, ht, next]
    simp (discharger := omega) only [if_pos]
    rw [hl, h]
    rfl

/-! ### Text Message Protocol -/

set_option hygiene false in
macro "tmp_start" : tactic => `(tactic| (
  have hv : u8 m 1 = _ := (u8_bits m 1 (by omega)).trans hf.2.2.2.1
  have hn : u16be m 2 = _ := (u16be_bits m 2 (by omega)).trans hf.2.2.2.2.1
  simp only [TextMessageProtocol.spec, upTo, Nat.mul_zero, Nat.zero_add, hf, ↓reduceIte, Nat.reduceEqDiff, TextMessageProtocol.restSpec, hv, hn, or_true, true_or, or_self, or_false, false_or,
    TextMessageProtocol.optionSpec, TextMessageProtocol.optionSize, next, RadioIp.spec, textAt]
  simp (discharger := omega) only [if_pos, u16be_bits, u8_bits, u32be_bits]
  simp only [hf, Nat.reduceMul, Nat.reduceAdd]))

theorem text_spec (x : Tmp) : TextMessageProtocol.spec x.bytes 0 = .ok (x.message, x.bytes.length) := by
  obtain ⟨ack, reserved, n, option, request, dst, body, h⟩ := x
  cases option with
  | none =>
    cases body
    case privateMessage src text =>
      have h := h text rfl
      simp only [optionOctets] at h
      simp only [Tmp.bytes, TmpBody.flds, TmpBody.service, TmpBody.text?, encText, Ip.flds, List.cons_append, List.nil_append]
      packed
      tmp_start
      rw [sizedAt_of (c := encUtf16le text) (rest := []) (by omega) (by rw [hd, List.append_nil]) (by omega),
        (decodeUtf16le_iff _ _).mpr rfl, show 16 + (n.toNat - 12 - 0) = m.length by omega]
      rfl
    case groupMessage src text =>
      have h := h text rfl
      simp only [optionOctets] at h
      simp only [Tmp.bytes, TmpBody.flds, TmpBody.service, TmpBody.text?, encText, Ip.flds, List.cons_append, List.nil_append]
      packed
      tmp_start
      rw [sizedAt_of (c := encUtf16le text) (rest := []) (by omega) (by rw [hd, List.append_nil]) (by omega),
        (decodeUtf16le_iff _ _).mpr rfl, show 16 + (n.toNat - 12 - 0) = m.length by omega]
      rfl
    case privateAck src result =>
      simp only [Tmp.bytes, TmpBody.flds, TmpBody.service, TmpBody.text?, encText, Ip.flds, List.cons_append, List.nil_append]
      packed
      rw [List.length_nil, Nat.add_zero] at hl
      tmp_start
      rw [hl]
      rfl
    case groupAck result =>
      simp only [Tmp.bytes, TmpBody.flds, TmpBody.service, TmpBody.text?, encText, Ip.flds, List.cons_append, List.nil_append]
      packed
      rw [List.length_nil, Nat.add_zero] at hl
      tmp_start
      rw [hl]
      rfl
    case other st src hs =>
      simp only [List.mem_cons, List.not_mem_nil, or_false, not_or] at hs
      obtain ⟨g1, g2, g3, g4⟩ := hs
      simp only [Tmp.bytes, TmpBody.flds, TmpBody.service, TmpBody.text?, encText, Ip.flds, List.cons_append, List.nil_append]
      packed
      rw [List.length_nil, Nat.add_zero] at hl
      tmp_start
      simp only [g1, g2, g3, g4, or_self, if_false]
      rw [hl]
      rfl
  | some o =>
    have ho := o.h
    have hc := (decodeUtf16le_iff _ _).mpr (Eq.refl (encUtf16le o.text))
    cases body
    case privateMessage src text =>
      have h := h text rfl
      simp only [optionOctets] at h
      simp only [Tmp.bytes, TmpBody.flds, TmpBody.service, TmpBody.text?, encText, Ip.flds, List.cons_append, List.nil_append]
      rw [List.append_assoc]
      packed
      rw [List.length_append] at hl
      tmp_start
      rw [sizedAt_of (c := encUtf16le text) (rest := encUtf16le o.text) (by omega) hd (by omega),
        (decodeUtf16le_iff _ _).mpr rfl, show n.toNat - 12 - (o.len.toNat + 2) = (encUtf16le text).length by omega]
      have ht : slice m (18 + (encUtf16le text).length) o.len.toNat = encUtf16le o.text := by
        rw [slice, ← List.drop_drop, hd, List.drop_left, ← ho, List.take_length]
      simp only [ht, hc, decoded]
      simp (discharger := omega) only [if_pos]
      rw [show 18 + (encUtf16le text).length + o.len.toNat = m.length by omega]
      rfl
    case groupMessage src text =>
      have h := h text rfl
      simp only [optionOctets] at h
      simp only [Tmp.bytes, TmpBody.flds, TmpBody.service, TmpBody.text?, encText, Ip.flds, List.cons_append, List.nil_append]
      rw [List.append_assoc]
      packed
      rw [List.length_append] at hl
      tmp_start
      rw [sizedAt_of (c := encUtf16le text) (rest := encUtf16le o.text) (by omega) hd (by omega),
        (decodeUtf16le_iff _ _).mpr rfl, show n.toNat - 12 - (o.len.toNat + 2) = (encUtf16le text).length by omega]
      have ht : slice m (18 + (encUtf16le text).length) o.len.toNat = encUtf16le o.text := by
        rw [slice, ← List.drop_drop, hd, List.drop_left, ← ho, List.take_length]
      simp only [ht, hc, decoded]
      simp (discharger := omega) only [if_pos]
      rw [show 18 + (encUtf16le text).length + o.len.toNat = m.length by omega]
      rfl
    case privateAck src result =>
      simp only [Tmp.bytes, TmpBody.flds, TmpBody.service, TmpBody.text?, encText, Ip.flds, List.cons_append, List.nil_append]
      rw [List.append_nil]
      packed
      tmp_start
      have ht : slice m 19 o.len.toNat = encUtf16le o.text := by rw [slice, hd, ← ho, List.take_length]
      simp only [ht, hc, decoded]
      simp (discharger := omega) only [if_pos]
      rw [show 19 + o.len.toNat = m.length by omega]
      rfl
    case groupAck result =>
      simp only [Tmp.bytes, TmpBody.flds, TmpBody.service, TmpBody.text?, encText, Ip.flds, List.cons_append, List.nil_append]
      rw [List.append_nil]
      packed
      tmp_start
      have ht : slice m 15 o.len.toNat = encUtf16le o.text := by rw [slice, hd, ← ho, List.take_length]
      simp only [ht, hc, decoded]
      simp (discharger := omega) only [if_pos]
      rw [show 15 + o.len.toNat = m.length by omega]
      rfl
    case other st src hs =>
      simp only [List.mem_cons, List.not_mem_nil, or_false, not_or] at hs
      obtain ⟨g1, g2, g3, g4⟩ := hs
      simp only [Tmp.bytes, TmpBody.flds, TmpBody.service, TmpBody.text?, encText, Ip.flds, List.cons_append, List.nil_append]
      rw [List.append_nil]
      packed
      tmp_start
      have ht : slice m 18 o.len.toNat = encUtf16le o.text := by rw [slice, hd, ← ho, List.take_length]
      simp only [g1, g2, g3, g4, or_self, if_false, ht, hc, decoded]
      simp (discharger := omega) only [if_pos]
      rw [show 18 + o.len.toNat = m.length by omega]
      rfl

/-! ### The theorems -/

/-- C52: delivery states. -/
theorem C52_delivery (x : Dds) : Decodes DataDeliveryStates.read x.bytes x.message :=
  decodes_of DataDeliveryStates.read_local DataDeliveryStates.fixed.parses (delivery_spec x)

/-- C52: registration messages. -/
theorem C52_registration (x : Rrs) : Decodes RadioRegistrationService.read x.bytes x.message :=
  decodes_of RadioRegistrationService.read_local RadioRegistrationService.parses (registration_spec x)

/-- C52: file transfer messages. -/
theorem C52_transmit (service_type : BitVec 8) (x : Dtp) :
    Decodes DataTransmitProtocol.read (x.bytes service_type) (x.message service_type) :=
  decodes_of DataTransmitProtocol.read_local DataTransmitProtocol.parses (transmit_spec service_type x)

/-- C52: radio control messages. -/
theorem C52_control (x : Rcp) : Decodes RadioControlProtocol.read x.bytes x.message :=
  decodes_of RadioControlProtocol.read_local RadioControlProtocol.parses (control_spec x)

/-- C52: text messages. -/
theorem C52_text (x : Tmp) : Decodes TextMessageProtocol.read x.bytes x.message :=
  decodes_of TextMessageProtocol.read_local TextMessageProtocol.parses (text_spec x)

/-- C52: telemetry messages, at the start of the data (elsewhere the class goes by the wrong octets, C09). -/
theorem C52_telemetry (x : Tp) (message_length : BitVec 16) (after : Bytes) :
    parseAt TelemetryProtocol.read (x.bytes message_length ++ after) 0 =
      .ok (x.message message_length, (x.bytes message_length).length) := by
  have h : parseAt TelemetryProtocol.read (x.bytes message_length) 0 = _ :=
    (TelemetryProtocol.parses.parseAt _ _ (Nat.zero_le _)).trans (telemetry_spec x message_length)
  have := (C41_consumed ⟨"Hytera.TelemetryProtocol", _, TelemetryProtocol.read⟩ (by simp [pduDecoders]) _ _ _ h).2 after
  rwa [List.take_length] at this

theorem Msg.isMessage (x : Msg) : IsMessage x.protocol.toNat x.bytes (some x.obj) := by
  have key : ∀ {α : Type} {r : Rd α} {w : Bytes} {y : α}, Decodes r w y → parseAt r w 0 = .ok (y, w.length) := by
    intro α r w y h
    have := h [] []
    simpa using this
  cases x
  case control x => exact .radioControl (key (C52_control x))
  case location x n => exact .location (key (C52_location x n))
  case text x => exact .text (key (C52_text x))
  case registration x => exact .registration (key (C52_registration x))
  case transmit s x => exact .transmit (key (C52_transmit s x))
  case delivery x => exact .delivery (key (C52_delivery x))

theorem pack_octet {fs : List Fld} {v : Nat} (h : width fs = 8) (hv : number fs = v) : pack fs = [UInt8.ofNat v] := by
  rw [pack, h, hv]
  simp [octets]

theorem Frame.bytes_eq (x : Frame) :
    x.bytes = hdapFrame x.reliable x.msg.protocol.toNat x.msg.bytes (UInt8.ofNat x.checksum.toNat) := by
  have h1 : pack f[x.reliable, x.msg.protocol] = [UInt8.ofNat ((if x.reliable then 128 else 0) + x.msg.protocol.toNat)] := by
    refine pack_octet rfl ?_
    simp only [number, width, ofBool_v, ofBool_w, ofBitVec_v, ofBitVec_w, Nat.add_zero, Nat.mul_one, pow_zero]
    cases x.reliable <;> simp
  have h2 : pack f[x.checksum, 0x03#8] = [UInt8.ofNat x.checksum.toNat, 0x03] := by
    rw [show f[x.checksum, 0x03#8] = f[x.checksum] ++ f[0x03#8] from rfl, pack_append _ _ (by simp [width]) (by simp [width]), pack_octet (v := x.checksum.toNat) rfl ?_,
      pack_octet (v := 3) rfl rfl]
    · rfl
    · simp [number, width]
  rw [Frame.bytes, hdapFrame, h1, h2]

/-- C52: frames around any of these messages. -/
theorem C52_frame (x : Frame) : Decodes HyteraDmrApplicationProtocol.read x.bytes x.obj := by
  intro before after
  have := C15_roundtrip (reliable := x.reliable) x.msg.isMessage (UInt8.ofNat x.checksum.toNat) (before ++ x.bytes ++ after)
    before.length after (by rw [List.append_assoc, List.drop_left, x.bytes_eq])
  rw [this, ← x.bytes_eq]
  have : (UInt8.ofNat x.checksum.toNat).toNat = x.checksum.toNat := by
    rw [UInt8.toNat_ofNat']; exact Nat.mod_eq_of_lt x.checksum.isLt
  rw [this]
  rfl

/-- C52: HRNP packets around any of these frames. -/
theorem C52_hrnp (version block source destination : BitVec 8) (packet_number packet_length checksum : BitVec 16) (x : Frame)
    (more : Bytes) :
    fromBytes HyteraRadioNetworkProtocol.read
      (pack [0x7E#8, version, block, 0#8, source, destination, packet_number, packet_length, checksum] ++ (x.bytes ++ more)) =
    .ok { header_identifier := [0x7E], version := version.toNat, block := block.toNat, opcode := resolveEnum _ 0,
          source_id := source.toNat, destination_id := destination.toNat, packet_number := packet_number.toNat,
          hrnp_packet_length := packet_length.toNat, checksum := checksum.toNat, data := some x.obj } := by
  rw [HyteraRadioNetworkProtocol.parses.fromBytes]
  packed
  have h0 : slice m 0 1 = [0x7E] := slice_of_bits m 0 1 0x7E (by omega) hf.1
  have h3 : u8 m 3 = 0 := (u8_bits m 3 (by omega)).trans hf.2.2.2.1
  have hlen : m.length = 12 + x.bytes.length + more.length := by rw [hl, List.length_append]; omega
  have hx : HyteraDmrApplicationProtocol.spec m 12 = .ok (x.obj, 12 + x.bytes.length) := by
    rw [← HyteraDmrApplicationProtocol.parses.parseAt m 12 (by omega)]
    have := C52_frame x (m.take 12) more
    rwa [List.append_assoc, ← hd, List.take_append_drop, List.length_take, Nat.min_eq_left (by omega)] at this
  simp only [HyteraRadioNetworkProtocol.spec, fixedAt, List.length_cons, List.length_nil, Nat.zero_add, h0, h3, upTo, optPart, hx,
    Parsed.as, next, ↓reduceIte]
  simp (discharger := omega) only [if_pos, u16be_bits, u8_bits]
  simp only [hf, Nat.reduceMul]
  rfl

/-- C52: HSTRP packets with any options and any of these frames. -/
theorem C52_hstrp {version flags : UInt8} {seq : Nat} (hseq : seq < 65536) (options : List (Nat × Bytes))
    (hoptions : ∀ o ∈ options, GoodOption o) (frames : List Frame) (ho : flags.toNat.testBit 5 = !options.isEmpty)
    (hh : options ≠ [] → flags.toNat.testBit 1 = false)
    (hc : frames ≠ [] → flags.toNat.testBit 4 = false ∧ flags.toNat.testBit 3 = false ∧ flags.toNat.testBit 2 = false) :
    fromBytes HyteraSimpleTransportReliabilityProtocol.read
        (hstrpPacket version flags seq (encodeOptions options ++ (frames.map Frame.bytes).flatten)) =
      .ok { header := [0x32, 0x42]
            version := version.toNat
            reserved := flags.toNat / 64
            has_option := flags.toNat.testBit 5
            is_reject := flags.toNat.testBit 4
            is_close := flags.toNat.testBit 3
            is_connect := flags.toNat.testBit 2
            is_heartbeat := flags.toNat.testBit 1
            is_ack := flags.toNat.testBit 0
            sequence_number := seq
            options := if options = [] then none else some (optionObjects options)
            data := if frames = [] then none else some (frames.map Frame.obj)
            extra_data := none } := by
  have hfr : ∀ f ∈ frames.map (fun x => (x.bytes, x.obj)), IsFrame f.1 f.2 := by
    intro f hf
    obtain ⟨x, _, rfl⟩ := List.mem_map.mp hf
    have := isFrame_of_message (reliable := x.reliable) x.msg.isMessage (UInt8.ofNat x.checksum.toNat)
    rw [← x.bytes_eq] at this
    have hk : (UInt8.ofNat x.checksum.toNat).toNat = x.checksum.toNat := by
      rw [UInt8.toNat_ofNat']; exact Nat.mod_eq_of_lt x.checksum.isLt
    rw [hk] at this
    exact this
  have := C18_roundtrip (version := version) (flags := flags) hseq options hoptions _ hfr ho hh (by simpa using hc)
  simpa [List.map_map, Function.comp_def] using this

/-! ### Concrete cases -/

/-- A triggered report with a text of two-octet characters. -/
def exampleText : Utf8 8 := ⟨['é', 'é', 'é', 'é'], by decide⟩

def examplePosition : Gps :=
  ⟨⟨[65], rfl⟩, ⟨[1, 2, 3, 4, 5, 6], rfl⟩, ⟨[1, 2, 3, 4, 5, 6], rfl⟩, ⟨[78], rfl⟩, ⟨[1, 2, 3, 4, 5, 6, 7, 8, 9], rfl⟩, ⟨[69], rfl⟩,
    ⟨[1, 2, 3, 4, 5, 6, 7, 8, 9, 10], rfl⟩, ⟨[1, 2, 3], rfl⟩, ⟨[1, 2, 3], rfl⟩⟩

example : (Lp.triggeredReport 7 ⟨10, 0, 1, 2⟩ exampleText examplePosition).bytes 56 =
    [0xC0, 0x03, 0, 56, 0, 0, 0, 7, 10, 0, 1, 2, 0xC3, 0xA9, 0xC3, 0xA9, 0xC3, 0xA9, 0xC3, 0xA9,
      65, 1, 2, 3, 4, 5, 6, 1, 2, 3, 4, 5, 6, 78, 1, 2, 3, 4, 5, 6, 7, 8, 9, 69, 1, 2, 3, 4, 5, 6, 7, 8, 9, 10, 1, 2, 3, 1, 2, 3] := by
  decide +kernel

/-- A private message "Hi" with the option "o". -/
def exampleMessage : Tmp where
  ack_not_required := 1
  reserved := 0
  message_length := 20
  option := some ⟨2, ['o'], by decide⟩
  request := 5
  destination := ⟨10, 0, 0, 80⟩
  body := .privateMessage ⟨10, 0, 0, 81⟩ ['H', 'i']
  h := by rintro t ⟨⟩; decide

example : exampleMessage.bytes = [0xC0, 0xA1, 0, 20, 0, 2, 0, 0, 0, 5, 10, 0, 0, 80, 10, 0, 0, 81, 72, 0, 105, 0, 111, 0] := by
  decide +kernel

/-- An HSTRP packet with two frames. -/
example : ∃ x, fromBytes HyteraSimpleTransportReliabilityProtocol.read
    (hstrpPacket 0 0x20 7 (encodeOptions [(3, [1, 2, 3, 4])] ++
      ([(⟨true, .text exampleMessage, 0x55⟩ : Frame), ⟨false, .control (.broadcastRequest 5 [(1, 2), (3, 4)] (by decide)), 0x66⟩].map
        Frame.bytes).flatten)) = .ok x ∧ (x.data.map List.length) = some 2 ∧ x.extra_data = none :=
  ⟨_, C52_hstrp (by decide) _ (by simp [GoodOption]) _ (by decide) (by decide) (fun _ => by decide), rfl, rfl⟩

end Dmr.Wire
