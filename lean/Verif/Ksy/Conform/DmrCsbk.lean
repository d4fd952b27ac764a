import Verif.Ksy.Conform.Base
/-
Generated by tools/mkconform.py: the schema of `DmrCsbk` against the model of the Python classes.
-/

set_option linter.unusedSimpArgs false
set_option maxHeartbeats 1000000

namespace Dmr.Ksy.Etsi

@[ksy] theorem resolve_DmrCsbk_CsbkoTypes (v : Nat) : Etsi.DmrCsbk.CsbkoTypes.resolve v = EnumVal.toPy "CsbkoTypes" (resolveEnum Dmr.Etsi.DmrCsbk.CsbkoTypes v) :=
  resolve_eq _ (by decide) v

@[ksy ↓] theorem read_DmrCsbk_CsbkoTypes_b6 (ev sub) : readTy ev sub (.bitsEnum 6 Etsi.DmrCsbk.CsbkoTypes) =
    asEnum Dmr.Etsi.DmrCsbk.CsbkoTypes (readBitsIntBe 6) >>= fun e => pure (some (EnumVal.toPy "CsbkoTypes" e)) :=
  enum_bits resolve_DmrCsbk_CsbkoTypes ev sub 6

@[ksy] theorem member_DmrCsbk_CsbkoTypes_bs_outbound_activation_csbk_pdu : Etsi.DmrCsbk.CsbkoTypes.member "bs_outbound_activation_csbk_pdu" = pure (.enum "CsbkoTypes" 56) := rfl

@[ksy] theorem same_DmrCsbk_CsbkoTypes_bs_outbound_activation_csbk_pdu (on : EnumVal Dmr.Etsi.DmrCsbk.CsbkoTypes) :
    same (EnumVal.toPy "CsbkoTypes" on) (.enum "CsbkoTypes" 56) = decide (on = .known .bs_outbound_activation_csbk_pdu) :=
  same_known _ _ Dmr.Etsi.DmrCsbk.CsbkoTypes.bs_outbound_activation_csbk_pdu

@[ksy] theorem member_DmrCsbk_CsbkoTypes_channel_timing : Etsi.DmrCsbk.CsbkoTypes.member "channel_timing" = pure (.enum "CsbkoTypes" 7) := rfl

@[ksy] theorem same_DmrCsbk_CsbkoTypes_channel_timing (on : EnumVal Dmr.Etsi.DmrCsbk.CsbkoTypes) :
    same (EnumVal.toPy "CsbkoTypes" on) (.enum "CsbkoTypes" 7) = decide (on = .known .channel_timing) :=
  same_known _ _ Dmr.Etsi.DmrCsbk.CsbkoTypes.channel_timing

@[ksy] theorem member_DmrCsbk_CsbkoTypes_negative_acknowledge_response : Etsi.DmrCsbk.CsbkoTypes.member "negative_acknowledge_response" = pure (.enum "CsbkoTypes" 38) := rfl

@[ksy] theorem same_DmrCsbk_CsbkoTypes_negative_acknowledge_response (on : EnumVal Dmr.Etsi.DmrCsbk.CsbkoTypes) :
    same (EnumVal.toPy "CsbkoTypes" on) (.enum "CsbkoTypes" 38) = decide (on = .known .negative_acknowledge_response) :=
  same_known _ _ Dmr.Etsi.DmrCsbk.CsbkoTypes.negative_acknowledge_response

@[ksy] theorem member_DmrCsbk_CsbkoTypes_preamble : Etsi.DmrCsbk.CsbkoTypes.member "preamble" = pure (.enum "CsbkoTypes" 61) := rfl

@[ksy] theorem same_DmrCsbk_CsbkoTypes_preamble (on : EnumVal Dmr.Etsi.DmrCsbk.CsbkoTypes) :
    same (EnumVal.toPy "CsbkoTypes" on) (.enum "CsbkoTypes" 61) = decide (on = .known .preamble) :=
  same_known _ _ Dmr.Etsi.DmrCsbk.CsbkoTypes.preamble

@[ksy] theorem member_DmrCsbk_CsbkoTypes_unit_to_unit_voice_service_answer_response : Etsi.DmrCsbk.CsbkoTypes.member "unit_to_unit_voice_service_answer_response" = pure (.enum "CsbkoTypes" 5) := rfl

@[ksy] theorem same_DmrCsbk_CsbkoTypes_unit_to_unit_voice_service_answer_response (on : EnumVal Dmr.Etsi.DmrCsbk.CsbkoTypes) :
    same (EnumVal.toPy "CsbkoTypes" on) (.enum "CsbkoTypes" 5) = decide (on = .known .unit_to_unit_voice_service_answer_response) :=
  same_known _ _ Dmr.Etsi.DmrCsbk.CsbkoTypes.unit_to_unit_voice_service_answer_response

@[ksy] theorem member_DmrCsbk_CsbkoTypes_unit_to_unit_voice_service_request : Etsi.DmrCsbk.CsbkoTypes.member "unit_to_unit_voice_service_request" = pure (.enum "CsbkoTypes" 4) := rfl

@[ksy] theorem same_DmrCsbk_CsbkoTypes_unit_to_unit_voice_service_request (on : EnumVal Dmr.Etsi.DmrCsbk.CsbkoTypes) :
    same (EnumVal.toPy "CsbkoTypes" on) (.enum "CsbkoTypes" 4) = decide (on = .known .unit_to_unit_voice_service_request) :=
  same_known _ _ Dmr.Etsi.DmrCsbk.CsbkoTypes.unit_to_unit_voice_service_request

@[ksy] theorem resolve_DmrCsbk_CsbkDataOrCsbk (v : Nat) : Etsi.DmrCsbk.CsbkDataOrCsbk.resolve v = EnumVal.toPy "CsbkDataOrCsbk" (resolveEnum Dmr.Etsi.DmrCsbk.CsbkDataOrCsbk v) :=
  resolve_eq _ (by decide) v

@[ksy ↓] theorem read_DmrCsbk_CsbkDataOrCsbk_b1 (ev sub) : readTy ev sub (.bitsEnum 1 Etsi.DmrCsbk.CsbkDataOrCsbk) =
    asEnum Dmr.Etsi.DmrCsbk.CsbkDataOrCsbk (readBitsIntBe 1) >>= fun e => pure (some (EnumVal.toPy "CsbkDataOrCsbk" e)) :=
  enum_bits resolve_DmrCsbk_CsbkDataOrCsbk ev sub 1

@[ksy] theorem resolve_DmrCsbk_CsbkGroupOrIndividual (v : Nat) : Etsi.DmrCsbk.CsbkGroupOrIndividual.resolve v = EnumVal.toPy "CsbkGroupOrIndividual" (resolveEnum Dmr.Etsi.DmrCsbk.CsbkGroupOrIndividual v) :=
  resolve_eq _ (by decide) v

@[ksy ↓] theorem read_DmrCsbk_CsbkGroupOrIndividual_b1 (ev sub) : readTy ev sub (.bitsEnum 1 Etsi.DmrCsbk.CsbkGroupOrIndividual) =
    asEnum Dmr.Etsi.DmrCsbk.CsbkGroupOrIndividual (readBitsIntBe 1) >>= fun e => pure (some (EnumVal.toPy "CsbkGroupOrIndividual" e)) :=
  enum_bits resolve_DmrCsbk_CsbkGroupOrIndividual ev sub 1

@[ksy] theorem resolve_DmrCsbk_AnswerResponse (v : Nat) : Etsi.DmrCsbk.AnswerResponse.resolve v = EnumVal.toPy "AnswerResponse" (resolveEnum Dmr.Etsi.DmrCsbk.AnswerResponse v) :=
  resolve_eq _ (by decide) v

@[ksy ↓] theorem read_DmrCsbk_AnswerResponse_b8 (ev sub) : readTy ev sub (.bitsEnum 8 Etsi.DmrCsbk.AnswerResponse) =
    asEnum Dmr.Etsi.DmrCsbk.AnswerResponse (readBitsIntBe 8) >>= fun e => pure (some (EnumVal.toPy "AnswerResponse" e)) :=
  enum_bits resolve_DmrCsbk_AnswerResponse ev sub 8

/-- okdmr/kaitai/etsi/dmr_csbk.ksy:25-38 against `Dmr.Etsi.DmrCsbk.ServiceOptions`. -/
@[ksy ↓] theorem DmrCsbk_ServiceOptions_conforms (n : Nat) (sc : Scope) :
    parse (n + 1) sc Etsi.DmrCsbk.ServiceOptions = (fun x => view (Dmr.Etsi.DmrCsbk.ServiceOptions.toPy x)) <$> Dmr.Etsi.DmrCsbk.ServiceOptions.read := by
  rw [parse_succ]
  ksy_simp [Dmr.Etsi.DmrCsbk.ServiceOptions.read, Dmr.Etsi.DmrCsbk.ServiceOptions.toPy]

/-- okdmr/kaitai/etsi/dmr_csbk.ksy:40-55 against `Dmr.Etsi.DmrCsbk.PreambleData`. -/
@[ksy ↓] theorem DmrCsbk_PreambleData_conforms (n : Nat) (sc : Scope) :
    parse (n + 1) sc Etsi.DmrCsbk.PreambleData = (fun x => view (Dmr.Etsi.DmrCsbk.PreambleData.toPy x)) <$> Dmr.Etsi.DmrCsbk.PreambleData.read := by
  rw [parse_succ]
  ksy_simp [Dmr.Etsi.DmrCsbk.PreambleData.read, Dmr.Etsi.DmrCsbk.PreambleData.toPy]

/-- okdmr/kaitai/etsi/dmr_csbk.ksy:57-63 against `Dmr.Etsi.DmrCsbk.BsOutboundActivationData`. -/
@[ksy ↓] theorem DmrCsbk_BsOutboundActivationData_conforms (n : Nat) (sc : Scope) :
    parse (n + 1) sc Etsi.DmrCsbk.BsOutboundActivationData = (fun x => view (Dmr.Etsi.DmrCsbk.BsOutboundActivationData.toPy x)) <$> Dmr.Etsi.DmrCsbk.BsOutboundActivationData.read := by
  rw [parse_succ]
  ksy_simp [Dmr.Etsi.DmrCsbk.BsOutboundActivationData.read, Dmr.Etsi.DmrCsbk.BsOutboundActivationData.toPy]

/-- okdmr/kaitai/etsi/dmr_csbk.ksy:65-73 against `Dmr.Etsi.DmrCsbk.UnitToUnitVoiceRequestData`. -/
@[ksy ↓] theorem DmrCsbk_UnitToUnitVoiceRequestData_conforms (n : Nat) (sc : Scope) :
    parse (n + 2) sc Etsi.DmrCsbk.UnitToUnitVoiceRequestData = (fun x => view (Dmr.Etsi.DmrCsbk.UnitToUnitVoiceRequestData.toPy x)) <$> Dmr.Etsi.DmrCsbk.UnitToUnitVoiceRequestData.read := by
  rw [parse_succ]
  ksy_simp [Dmr.Etsi.DmrCsbk.UnitToUnitVoiceRequestData.read, Dmr.Etsi.DmrCsbk.UnitToUnitVoiceRequestData.toPy]

/-- okdmr/kaitai/etsi/dmr_csbk.ksy:75-84 against `Dmr.Etsi.DmrCsbk.UnitToUnitVoiceAnswerData`. -/
@[ksy ↓] theorem DmrCsbk_UnitToUnitVoiceAnswerData_conforms (n : Nat) (sc : Scope) :
    parse (n + 2) sc Etsi.DmrCsbk.UnitToUnitVoiceAnswerData = (fun x => view (Dmr.Etsi.DmrCsbk.UnitToUnitVoiceAnswerData.toPy x)) <$> Dmr.Etsi.DmrCsbk.UnitToUnitVoiceAnswerData.read := by
  rw [parse_succ]
  ksy_simp [Dmr.Etsi.DmrCsbk.UnitToUnitVoiceAnswerData.read, Dmr.Etsi.DmrCsbk.UnitToUnitVoiceAnswerData.toPy]

/-- okdmr/kaitai/etsi/dmr_csbk.ksy:86-99 against `Dmr.Etsi.DmrCsbk.NegativeAckResponseData`. -/
@[ksy ↓] theorem DmrCsbk_NegativeAckResponseData_conforms (n : Nat) (sc : Scope) :
    parse (n + 1) sc Etsi.DmrCsbk.NegativeAckResponseData = (fun x => view (Dmr.Etsi.DmrCsbk.NegativeAckResponseData.toPy x)) <$> Dmr.Etsi.DmrCsbk.NegativeAckResponseData.read := by
  rw [parse_succ]
  ksy_simp [Dmr.Etsi.DmrCsbk.NegativeAckResponseData.read, Dmr.Etsi.DmrCsbk.NegativeAckResponseData.toPy]

/-- okdmr/kaitai/etsi/dmr_csbk.ksy:101-121 against `Dmr.Etsi.DmrCsbk.ChannelTimingData`. -/
@[ksy ↓] theorem DmrCsbk_ChannelTimingData_conforms (n : Nat) (sc : Scope) :
    parse (n + 1) sc Etsi.DmrCsbk.ChannelTimingData = (fun x => view (Dmr.Etsi.DmrCsbk.ChannelTimingData.toPy x)) <$> Dmr.Etsi.DmrCsbk.ChannelTimingData.read := by
  rw [parse_succ]
  ksy_simp [Dmr.Etsi.DmrCsbk.ChannelTimingData.read, Dmr.Etsi.DmrCsbk.ChannelTimingData.toPy]

/-- okdmr/kaitai/etsi/dmr_csbk.ksy:1-145 against `Dmr.Etsi.DmrCsbk`. -/
@[ksy ↓] theorem DmrCsbk_conforms (n : Nat) (sc : Scope) :
    parse (n + 3) sc Etsi.DmrCsbk = (fun x => view (Dmr.Etsi.DmrCsbk.toPy x)) <$> Dmr.Etsi.DmrCsbk.read := by
  rw [parse_succ]
  ksy_simp [Dmr.Etsi.DmrCsbk.read, Dmr.Etsi.DmrCsbk.toPy]
  ksy_switch Dmr.Etsi.DmrCsbk.readCsbkData Dmr.Etsi.DmrCsbk.CsbkDataUnion.toPy Dmr.Etsi.DmrCsbk.CsbkoTypes

end Dmr.Ksy.Etsi
