import Verif.Layout.Hytera
import Verif.Advance
import Verif.Spec.HyteraVar
/-
The Hytera decoders of variable-size messages read parts where `Verif/Spec/HyteraVar.lean` says they are.
-/

namespace Dmr.Hytera

parse_layout Datetimestring []
parse_layout Intervalstring []

attribute [rd] Datetimestring.spec Intervalstring.spec

parse_layout1 DataTransmitProtocol.DtpRequest Nat []
parse_layout1 DataTransmitProtocol.DataSliceTransmit Nat []

theorem DataTransmitProtocol.body_parses (v n : Nat) :
    Parses (DataTransmitProtocol.readData (resolveEnum _ v) n) (DataTransmitProtocol.bodySpec v n) := by
  unfold DataTransmitProtocol.readData DataTransmitProtocol.bodySpec
  refine .caseEnum rfl ((DataTransmitProtocol.DtpRequest.parses n).map _) ?_
  refine .caseEnum rfl ((DataTransmitProtocol.DataSliceTransmit.parses n).map _) ?_
  refine .caseEnum rfl (DataTransmitProtocol.DataSliceAnswer.parses.map _) ?_
  refine .caseEnum rfl (DataTransmitProtocol.LastDataSliceAnswer.parses.map _) ?_
  refine .caseEnum rfl (DataTransmitProtocol.DtpAnswer.parses.map _) ?_
  refine .caseEnum rfl (DataTransmitProtocol.LastDataSlice.parses.map _) ?_
  exact .none

parse_layout DataTransmitProtocol [(DataTransmitProtocol.body_parses _ _).b]

parse_layout LocationProtocol.ConditionReportRequest []
parse_layout LocationProtocol.QuickGpsPayload []
parse_layout LocationProtocol.ConditionQuickGpsRequest [resolveEnum_eq_known, PyEnum.value, LocationProtocol.CmdTypes.toNat]
parse_layout LocationProtocol.TriggeredReportRequest []
parse_layout LocationProtocol.TriggeredReport []

theorem LocationProtocol.body_parses (v : Nat) :
    Parses (LocationProtocol.readData (resolveEnum _ v)) (LocationProtocol.bodySpec v) := by
  unfold LocationProtocol.readData LocationProtocol.bodySpec
  refine .caseEnum rfl (LocationProtocol.TriggeredReportAnswer.parses.map _) ?_
  refine .caseEnum rfl (LocationProtocol.EmergencyReportStopRequest.parses.map _) ?_
  refine .caseEnum rfl (LocationProtocol.ConditionQuickGpsRequest.parses.map _) ?_
  refine .caseEnum rfl (LocationProtocol.ConditionReport.parses.map _) ?_
  refine .caseEnum rfl (LocationProtocol.EmergencyReportStopAnswer.parses.map _) ?_
  refine .caseEnum rfl (LocationProtocol.ConditionReportAnswer.parses.map _) ?_
  refine .caseEnum rfl (LocationProtocol.StandardAnswer.parses.map _) ?_
  refine .caseEnum rfl (LocationProtocol.StandardRequest.parses.map _) ?_
  refine .caseEnum rfl (LocationProtocol.TriggeredReport.parses.map _) ?_
  refine .caseEnum rfl (LocationProtocol.TriggeredReportStopAnswer.parses.map _) ?_
  refine .caseEnum rfl (LocationProtocol.StandardAnswerWithRssi.parses.map _) ?_
  refine .caseEnum rfl (LocationProtocol.ConditionReportWithRssi.parses.map _) ?_
  refine .caseEnum rfl (LocationProtocol.TriggeredReportStopRequest.parses.map _) ?_
  refine .caseEnum rfl (LocationProtocol.EmergencyReport.parses.map _) ?_
  refine .caseEnum rfl (LocationProtocol.ConditionReportRequest.parses.map _) ?_
  refine .caseEnum rfl (LocationProtocol.TriggeredReportRequest.parses.map _) ?_
  refine .caseEnum rfl (LocationProtocol.ConditionQuickGpsAnswer.parses.map _) ?_
  exact .none

parse_layout LocationProtocol [(LocationProtocol.body_parses _).b]

parse_layout RadioControlProtocol.BroadcastStatusConfigurationRequest
  [(repeatN_fixed RadioControlProtocol.BroadcastConfiguration.fixed _).b]

theorem RadioControlProtocol.RadioIdentificationReply.parses (n : Nat) :
    Parses (RadioControlProtocol.RadioIdentificationReply.read n)
      (RadioControlProtocol.RadioIdentificationReply.spec n) := by
  refine ⟨?_, ?_⟩ <;> intro buf q hq <;> unfold RadioControlProtocol.RadioIdentificationReply.spec
  · unfold RadioControlProtocol.RadioIdentificationReply.read
    rd_simp []
    have h1 : (n < 6) = ¬ (6 ≤ n) := by simp
    have h2 : (n < 198) = ¬ (198 ≤ n) := by simp
    have h3 : (n < 206) = ¬ (206 ≤ n) := by simp
    simp only [h1, h2, h3, ite_not]
    by_cases c1 : 6 ≤ n
    · by_cases c2 : 198 ≤ n
      · by_cases c3 : 206 ≤ n <;> simp only [c1, c2, c3, if_true, if_false]
      · have c3 : ¬ 206 ≤ n := by omega
        simp only [c1, c2, c3, if_true, if_false]
    · have c2 : ¬ 198 ≤ n := by omega
      have c3 : ¬ 206 ≤ n := by omega
      simp only [c1, c2, c3, if_false]
  · in_range

theorem RadioControlProtocol.body_parses (v n : Nat) :
    Parses (RadioControlProtocol.readData (resolveEnum _ v) n) (RadioControlProtocol.bodySpec v n) := by
  unfold RadioControlProtocol.readData RadioControlProtocol.bodySpec
  refine .caseEnum rfl (RadioControlProtocol.CallReply.parses.map _) ?_
  refine .caseEnum rfl ((RadioControlProtocol.RadioIdentificationReply.parses n).map _) ?_
  refine .caseEnum rfl (RadioControlProtocol.BroadcastStatusConfigurationRequest.parses.map _) ?_
  refine .caseEnum rfl (RadioControlProtocol.CallRequest.parses.map _) ?_
  refine .caseEnum rfl ⟨fun _ _ _ => rfl, fun _ _ h => InRange.ok h⟩ ?_
  refine .caseEnum rfl (RadioControlProtocol.BroadcastStatusConfigurationReply.parses.map _) ?_
  refine .caseEnum rfl (RadioControlProtocol.RemoveRadioReply.parses.map _) ?_
  refine ⟨?_, ?_⟩ <;> intro buf q hq
  · rd_simp [RadioControlProtocol.GenericData.read]
  · in_range

parse_layout RadioControlProtocol [(RadioControlProtocol.body_parses _ _).b]

theorem RadioRegistrationService.parses : Parses RadioRegistrationService.read RadioRegistrationService.spec := by
  refine ⟨?_, ?_⟩ <;> intro buf q hq <;> unfold RadioRegistrationService.spec
  · unfold RadioRegistrationService.read
    rd_simp [resolveEnum_eq_known, PyEnum.value, RadioRegistrationService.RrsTypes.toNat]
    split_ifs <;> first | rfl | (exfalso; omega)
  · in_range

parse_layout TelemetryProtocol.VioExtendedStatus []
parse_layout TelemetryProtocol.ExtendedStatusReport []

theorem TelemetryProtocol.body_parses (v : Nat) :
    Parses (TelemetryProtocol.readData (resolveEnum _ v)) (TelemetryProtocol.bodySpec v) := by
  unfold TelemetryProtocol.readData TelemetryProtocol.bodySpec
  refine .caseEnum rfl (TelemetryProtocol.StandardStatusRequest.parses.map _) ?_
  refine .caseEnum rfl (TelemetryProtocol.RemoteControlAnswer.parses.map _) ?_
  refine .caseEnum rfl (TelemetryProtocol.ExtendedStatusReport.parses.map _) ?_
  refine .caseEnum rfl (TelemetryProtocol.RemoteControlRequest.parses.map _) ?_
  refine .caseEnum rfl (TelemetryProtocol.StandardStatusReport.parses.map _) ?_
  exact .none

parse_layout TelemetryProtocol [(TelemetryProtocol.body_parses _).b, TelemetryProtocol.computeSpecificService, merge_ite']

@[rd ↓] theorem RadioRegistrationService.b_read {β : Type} (k : _ → Rd β) (buf : Bytes) (p : Nat) (h8 : p % 8 = 0)
    (hp : p ≤ 8 * buf.length) :
    Rd.eval (RadioRegistrationService.read >>= k) (Stream.at buf p) =
      next buf (RadioRegistrationService.spec buf (p / 8)) (fun a e => Rd.eval (k a) (Stream.at buf (8 * e))) :=
  RadioRegistrationService.parses.b k buf p h8 hp

theorem TextMessageProtocol.optionSpec_range (n : Option Nat) (b : Bytes) (e : Nat) (he : e ≤ b.length) :
    InRange b (TextMessageProtocol.optionSpec n b e) := by
  unfold TextMessageProtocol.optionSpec
  cases n
  · exact InRange.ok he
  · in_range


theorem TextMessageProtocol.textSize (n k : Nat) :
    ((((n : Int) - 4) - 4) - 4) - (k : Int) = (n : Int) - 12 - (k : Int) := by omega
theorem TextMessageProtocol.textSize_toNat (n k : Nat) : ((n : Int) - 12 - (k : Int)).toNat = n - 12 - k := by omega

/-- Symbolic execution of the text message reader when flags and service type are known. -/
macro "tmp_simp" "[" ts:Lean.Parser.Tactic.simpLemma,* "]" : tactic =>
  `(tactic| rd_simp [TextMessageProtocol.optionFlagIsOne, PyEnum.value, TextMessageProtocol.OptionFlags.toNat,
        TextMessageProtocol.restSpec, resolveEnum_eq_known, TextMessageProtocol.ServiceTypes.toNat, decide_true,
        decide_false, Bool.false_eq_true, false_or, or_false, or_self, true_or, or_true,
        TextMessageProtocol.optionSumLen, ne_eq, TextMessageProtocol.optionSpec, TextMessageProtocol.optionSize,
        TextMessageProtocol.readOptionField, TextMessageProtocol.textSize, TextMessageProtocol.textSize_toNat, $ts,*])

theorem TextMessageProtocol.parses : Parses TextMessageProtocol.read TextMessageProtocol.spec := by
  refine ⟨?_, ?_⟩ <;> intro buf q hq
  · unfold TextMessageProtocol.spec TextMessageProtocol.read
    rcases (by have := bitsAt_lt buf (8 * q + 1) 1; omega :
      bitsAt buf (8 * q + 1) 1 = 0 ∨ bitsAt buf (8 * q + 1) 1 = 1) with hb | hb
    · have e0 : resolveEnum TextMessageProtocol.OptionFlags 0 = .known .option_len_and_field_disabled := rfl
      by_cases h1 : u8 buf (q + 1) = 0xA1
      · tmp_simp [hb, h1, e0]
      by_cases h2 : u8 buf (q + 1) = 0xB1
      · tmp_simp [hb, h2, e0]
      by_cases h3 : u8 buf (q + 1) = 0xA2
      · tmp_simp [hb, h3, e0]
      by_cases h4 : u8 buf (q + 1) = 0xB2
      · tmp_simp [hb, h4, e0]
      tmp_simp [hb, h1, h2, h3, h4, e0]
    · have e0 : resolveEnum TextMessageProtocol.OptionFlags 1 = .known .option_len_and_field_enabled := rfl
      by_cases h1 : u8 buf (q + 1) = 0xA1
      · tmp_simp [hb, h1, e0]
      by_cases h2 : u8 buf (q + 1) = 0xB1
      · tmp_simp [hb, h2, e0]
      by_cases h3 : u8 buf (q + 1) = 0xA2
      · tmp_simp [hb, h3, e0]
      by_cases h4 : u8 buf (q + 1) = 0xB2
      · tmp_simp [hb, h4, e0]
      tmp_simp [hb, h1, h2, h3, h4, e0]
  · unfold TextMessageProtocol.spec TextMessageProtocol.restSpec
    in_range

@[rd ↓] theorem TextMessageProtocol.b_read {β : Type} (k : _ → Rd β) (buf : Bytes) (p : Nat) (h8 : p % 8 = 0)
    (hp : p ≤ 8 * buf.length) :
    Rd.eval (TextMessageProtocol.read >>= k) (Stream.at buf p) =
      next buf (TextMessageProtocol.spec buf (p / 8)) (fun a e => Rd.eval (k a) (Stream.at buf (8 * e))) :=
  TextMessageProtocol.parses.b k buf p h8 hp

/-! ### HDAP and HRNP -/

theorem HyteraDmrApplicationProtocol.body_parses (v : Nat) :
    Parses (HyteraDmrApplicationProtocol.readData (resolveEnum _ v)) (HyteraDmrApplicationProtocol.bodySpec v) := by
  unfold HyteraDmrApplicationProtocol.readData HyteraDmrApplicationProtocol.bodySpec
  refine .caseEnum rfl (RadioRegistrationService.parses.map _) ?_
  refine .caseEnum rfl (TelemetryProtocol.parses.map _) ?_
  refine .caseEnum rfl (RadioControlProtocol.parses.map _) ?_
  refine .caseEnum rfl (TextMessageProtocol.parses.map _) ?_
  refine .caseEnum rfl (DataDeliveryStates.parses.map _) ?_
  refine .caseEnum rfl (LocationProtocol.parses.map _) ?_
  refine .caseEnum rfl (DataTransmitProtocol.parses.map _) ?_
  exact .none

parse_layout HyteraDmrApplicationProtocol [(HyteraDmrApplicationProtocol.body_parses _).b]

theorem HyteraRadioNetworkProtocol.parses :
    Parses HyteraRadioNetworkProtocol.read HyteraRadioNetworkProtocol.spec := by
  refine ⟨?_, ?_⟩ <;> intro buf q hq <;> unfold HyteraRadioNetworkProtocol.spec
  · unfold HyteraRadioNetworkProtocol.read
    rd_layout [optPart, resolveEnum_eq_known, PyEnum.value, HyteraRadioNetworkProtocol.Opcodes.toNat]
  · in_range

parse_layout HyteraSimpleTransportReliabilityProtocol.Option []

/-! ### No message ends before it starts -/

theorem DataTransmitProtocol.bodySpec_from (v n : Nat) (b : Bytes) (q : Nat) : AtLeast q (DataTransmitProtocol.bodySpec v n b q) := by
  unfold bodySpec DtpRequest.spec DataSliceTransmit.spec
  at_least []

theorem LocationProtocol.QuickGpsPayload.spec_from (b : Bytes) (q : Nat) : AtLeast q (QuickGpsPayload.spec b q) := by
  unfold spec
  at_least []

theorem LocationProtocol.bodySpec_from (v : Nat) (b : Bytes) (q : Nat) : AtLeast q (LocationProtocol.bodySpec v b q) := by
  unfold bodySpec ConditionQuickGpsRequest.spec TriggeredReport.spec ConditionReportRequest.spec TriggeredReportRequest.spec
  at_least [LocationProtocol.QuickGpsPayload.spec_from _ _]

theorem RadioControlProtocol.bodySpec_from (v n : Nat) (b : Bytes) (q : Nat) : AtLeast q (RadioControlProtocol.bodySpec v n b q) := by
  unfold bodySpec RadioIdentificationReply.spec BroadcastStatusConfigurationRequest.spec
  at_least []

theorem TelemetryProtocol.VioExtendedStatus.spec_from (b : Bytes) (q : Nat) : AtLeast q (VioExtendedStatus.spec b q) := by
  unfold spec
  at_least []

theorem TelemetryProtocol.bodySpec_from (v : Nat) (b : Bytes) (q : Nat) : AtLeast q (TelemetryProtocol.bodySpec v b q) := by
  unfold bodySpec ExtendedStatusReport.spec
  at_least [TelemetryProtocol.VioExtendedStatus.spec_from _ _]

theorem TextMessageProtocol.optionSpec_from (n : Option Nat) (b : Bytes) (q : Nat) : AtLeast q (TextMessageProtocol.optionSpec n b q) := by
  unfold optionSpec
  split <;> at_least []

theorem HyteraDmrApplicationProtocol.bodySpec_from (v : Nat) (b : Bytes) (q : Nat) :
    AtLeast q (HyteraDmrApplicationProtocol.bodySpec v b q) := by
  unfold bodySpec RadioRegistrationService.spec TelemetryProtocol.spec RadioControlProtocol.spec TextMessageProtocol.spec
    LocationProtocol.spec DataTransmitProtocol.spec TextMessageProtocol.restSpec
  at_least [DataTransmitProtocol.bodySpec_from _ _ _ _, LocationProtocol.bodySpec_from _ _ _,
    RadioControlProtocol.bodySpec_from _ _ _ _, TelemetryProtocol.bodySpec_from _ _ _,
    TextMessageProtocol.optionSpec_from _ _ _]

theorem HyteraDmrApplicationProtocol.advances : Advances HyteraDmrApplicationProtocol.spec := by
  intro b q a e
  refine (?_ : AtLeast (q + 1) (HyteraDmrApplicationProtocol.spec b q)) a e
  unfold HyteraDmrApplicationProtocol.spec
  at_least [HyteraDmrApplicationProtocol.bodySpec_from _ _ _]

theorem HyteraSimpleTransportReliabilityProtocol.Option.advances :
    Advances HyteraSimpleTransportReliabilityProtocol.Option.spec := by
  intro b q a e
  refine (?_ : AtLeast (q + 1) (HyteraSimpleTransportReliabilityProtocol.Option.spec b q)) a e
  unfold HyteraSimpleTransportReliabilityProtocol.Option.spec
  at_least []

end Dmr.Hytera
