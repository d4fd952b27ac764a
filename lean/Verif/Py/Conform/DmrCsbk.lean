import Verif.Py.Base
/-
Generated by tools/mkpyconform.py: the source file of `Etsi.DmrCsbk` against the model of its classes.
-/

set_option autoImplicit false
set_option linter.unusedSimpArgs false
set_option maxHeartbeats 1000000

namespace Dmr.Py.ConformEtsi

theorem DmrCsbk.file : files[18]? = some Source.Etsi.DmrCsbk.file := rfl

theorem enum_DmrCsbk_CsbkoTypes : library.enums.find? (fun e => e.qualified == "Etsi.DmrCsbk.CsbkoTypes") = some Source.Etsi.DmrCsbk.CsbkoTypes := enum_at 18 _ DmrCsbk.file 0 Source.Etsi.DmrCsbk.CsbkoTypes rfl

@[py] theorem resolve_DmrCsbk_CsbkoTypes (v : Nat) : resolve library "Etsi.DmrCsbk.CsbkoTypes" (.pv (.int (v : Int))) =
    pure (.pv (EnumVal.toPy "CsbkoTypes" (resolveEnum Dmr.Etsi.DmrCsbk.CsbkoTypes v))) := run_resolve Source.Etsi.DmrCsbk.CsbkoTypes enum_DmrCsbk_CsbkoTypes (by decide) v

@[py] theorem member_DmrCsbk_CsbkoTypes_bs_outbound_activation_csbk_pdu : member library "Etsi.DmrCsbk.CsbkoTypes" "bs_outbound_activation_csbk_pdu" = pure (.pv (.enum "CsbkoTypes" 56)) := member_of enum_DmrCsbk_CsbkoTypes rfl

@[py] theorem same_DmrCsbk_CsbkoTypes_bs_outbound_activation_csbk_pdu (on : EnumVal Dmr.Etsi.DmrCsbk.CsbkoTypes) :
    same (.pv (EnumVal.toPy "CsbkoTypes" on)) (.pv (.enum "CsbkoTypes" 56)) = decide (on = .known .bs_outbound_activation_csbk_pdu) :=
  same_known _ _ Dmr.Etsi.DmrCsbk.CsbkoTypes.bs_outbound_activation_csbk_pdu

@[py] theorem member_DmrCsbk_CsbkoTypes_channel_timing : member library "Etsi.DmrCsbk.CsbkoTypes" "channel_timing" = pure (.pv (.enum "CsbkoTypes" 7)) := member_of enum_DmrCsbk_CsbkoTypes rfl

@[py] theorem same_DmrCsbk_CsbkoTypes_channel_timing (on : EnumVal Dmr.Etsi.DmrCsbk.CsbkoTypes) :
    same (.pv (EnumVal.toPy "CsbkoTypes" on)) (.pv (.enum "CsbkoTypes" 7)) = decide (on = .known .channel_timing) :=
  same_known _ _ Dmr.Etsi.DmrCsbk.CsbkoTypes.channel_timing

@[py] theorem member_DmrCsbk_CsbkoTypes_negative_acknowledge_response : member library "Etsi.DmrCsbk.CsbkoTypes" "negative_acknowledge_response" = pure (.pv (.enum "CsbkoTypes" 38)) := member_of enum_DmrCsbk_CsbkoTypes rfl

@[py] theorem same_DmrCsbk_CsbkoTypes_negative_acknowledge_response (on : EnumVal Dmr.Etsi.DmrCsbk.CsbkoTypes) :
    same (.pv (EnumVal.toPy "CsbkoTypes" on)) (.pv (.enum "CsbkoTypes" 38)) = decide (on = .known .negative_acknowledge_response) :=
  same_known _ _ Dmr.Etsi.DmrCsbk.CsbkoTypes.negative_acknowledge_response

@[py] theorem member_DmrCsbk_CsbkoTypes_preamble : member library "Etsi.DmrCsbk.CsbkoTypes" "preamble" = pure (.pv (.enum "CsbkoTypes" 61)) := member_of enum_DmrCsbk_CsbkoTypes rfl

@[py] theorem same_DmrCsbk_CsbkoTypes_preamble (on : EnumVal Dmr.Etsi.DmrCsbk.CsbkoTypes) :
    same (.pv (EnumVal.toPy "CsbkoTypes" on)) (.pv (.enum "CsbkoTypes" 61)) = decide (on = .known .preamble) :=
  same_known _ _ Dmr.Etsi.DmrCsbk.CsbkoTypes.preamble

@[py] theorem member_DmrCsbk_CsbkoTypes_unit_to_unit_voice_service_answer_response : member library "Etsi.DmrCsbk.CsbkoTypes" "unit_to_unit_voice_service_answer_response" = pure (.pv (.enum "CsbkoTypes" 5)) := member_of enum_DmrCsbk_CsbkoTypes rfl

@[py] theorem same_DmrCsbk_CsbkoTypes_unit_to_unit_voice_service_answer_response (on : EnumVal Dmr.Etsi.DmrCsbk.CsbkoTypes) :
    same (.pv (EnumVal.toPy "CsbkoTypes" on)) (.pv (.enum "CsbkoTypes" 5)) = decide (on = .known .unit_to_unit_voice_service_answer_response) :=
  same_known _ _ Dmr.Etsi.DmrCsbk.CsbkoTypes.unit_to_unit_voice_service_answer_response

@[py] theorem member_DmrCsbk_CsbkoTypes_unit_to_unit_voice_service_request : member library "Etsi.DmrCsbk.CsbkoTypes" "unit_to_unit_voice_service_request" = pure (.pv (.enum "CsbkoTypes" 4)) := member_of enum_DmrCsbk_CsbkoTypes rfl

@[py] theorem same_DmrCsbk_CsbkoTypes_unit_to_unit_voice_service_request (on : EnumVal Dmr.Etsi.DmrCsbk.CsbkoTypes) :
    same (.pv (EnumVal.toPy "CsbkoTypes" on)) (.pv (.enum "CsbkoTypes" 4)) = decide (on = .known .unit_to_unit_voice_service_request) :=
  same_known _ _ Dmr.Etsi.DmrCsbk.CsbkoTypes.unit_to_unit_voice_service_request

theorem enum_DmrCsbk_CsbkDataOrCsbk : library.enums.find? (fun e => e.qualified == "Etsi.DmrCsbk.CsbkDataOrCsbk") = some Source.Etsi.DmrCsbk.CsbkDataOrCsbk := enum_at 18 _ DmrCsbk.file 1 Source.Etsi.DmrCsbk.CsbkDataOrCsbk rfl

@[py] theorem resolve_DmrCsbk_CsbkDataOrCsbk (v : Nat) : resolve library "Etsi.DmrCsbk.CsbkDataOrCsbk" (.pv (.int (v : Int))) =
    pure (.pv (EnumVal.toPy "CsbkDataOrCsbk" (resolveEnum Dmr.Etsi.DmrCsbk.CsbkDataOrCsbk v))) := run_resolve Source.Etsi.DmrCsbk.CsbkDataOrCsbk enum_DmrCsbk_CsbkDataOrCsbk (by decide) v

theorem enum_DmrCsbk_CsbkGroupOrIndividual : library.enums.find? (fun e => e.qualified == "Etsi.DmrCsbk.CsbkGroupOrIndividual") = some Source.Etsi.DmrCsbk.CsbkGroupOrIndividual := enum_at 18 _ DmrCsbk.file 2 Source.Etsi.DmrCsbk.CsbkGroupOrIndividual rfl

@[py] theorem resolve_DmrCsbk_CsbkGroupOrIndividual (v : Nat) : resolve library "Etsi.DmrCsbk.CsbkGroupOrIndividual" (.pv (.int (v : Int))) =
    pure (.pv (EnumVal.toPy "CsbkGroupOrIndividual" (resolveEnum Dmr.Etsi.DmrCsbk.CsbkGroupOrIndividual v))) := run_resolve Source.Etsi.DmrCsbk.CsbkGroupOrIndividual enum_DmrCsbk_CsbkGroupOrIndividual (by decide) v

theorem enum_DmrCsbk_AnswerResponse : library.enums.find? (fun e => e.qualified == "Etsi.DmrCsbk.AnswerResponse") = some Source.Etsi.DmrCsbk.AnswerResponse := enum_at 18 _ DmrCsbk.file 3 Source.Etsi.DmrCsbk.AnswerResponse rfl

@[py] theorem resolve_DmrCsbk_AnswerResponse (v : Nat) : resolve library "Etsi.DmrCsbk.AnswerResponse" (.pv (.int (v : Int))) =
    pure (.pv (EnumVal.toPy "AnswerResponse" (resolveEnum Dmr.Etsi.DmrCsbk.AnswerResponse v))) := run_resolve Source.Etsi.DmrCsbk.AnswerResponse enum_DmrCsbk_AnswerResponse (by decide) v

theorem DmrCsbk_NegativeAckResponseData_class : library.class "Etsi.DmrCsbk.NegativeAckResponseData" = some Source.Etsi.DmrCsbk.NegativeAckResponseData := class_at 18 _ DmrCsbk.file 0 Source.Etsi.DmrCsbk.NegativeAckResponseData rfl

/-- okdmr/kaitai/etsi/dmr_csbk.py:72-85 against `Dmr.Etsi.DmrCsbk.NegativeAckResponseData`. -/
@[py] theorem DmrCsbk_NegativeAckResponseData_builds (n : Nat) (H : List Obj) (S : List Stream) (k : Nat) (hk : k < S.length) (s : Stream)
    (parent root : Val) : ((calls library (n + 3)).construct "Etsi.DmrCsbk.NegativeAckResponseData" [.io k, parent, root]).run ⟨H, S.set k s⟩ =
      after Dmr.Etsi.DmrCsbk.NegativeAckResponseData.read s (fun e s' => .raise e ⟨H, S.set k s'⟩)
        (built Dmr.Etsi.DmrCsbk.NegativeAckResponseData.toPy k parent root H S) := by
  rw [construct_eq library _ "Etsi.DmrCsbk.NegativeAckResponseData" _ _ DmrCsbk_NegativeAckResponseData_class rfl rfl]
  py_run [onStream_set _ _ _ _ hk, hk, Dmr.Etsi.DmrCsbk.NegativeAckResponseData.read, Dmr.Etsi.DmrCsbk.NegativeAckResponseData.toPy]

@[py] theorem DmrCsbk_NegativeAckResponseData_place (io parent root : Val) (b : Nat) (x : Dmr.Etsi.DmrCsbk.NegativeAckResponseData) :
    place io parent root b x.toPy = (.obj b, placeObj io parent root b x.toPy) :=
  place_part _ _ _ _ _ _ (by decide)

theorem DmrCsbk_ServiceOptions_class : library.class "Etsi.DmrCsbk.ServiceOptions" = some Source.Etsi.DmrCsbk.ServiceOptions := class_at 18 _ DmrCsbk.file 2 Source.Etsi.DmrCsbk.ServiceOptions rfl

/-- okdmr/kaitai/etsi/dmr_csbk.py:100-113 against `Dmr.Etsi.DmrCsbk.ServiceOptions`. -/
@[py] theorem DmrCsbk_ServiceOptions_builds (n : Nat) (H : List Obj) (S : List Stream) (k : Nat) (hk : k < S.length) (s : Stream)
    (parent root : Val) : ((calls library (n + 3)).construct "Etsi.DmrCsbk.ServiceOptions" [.io k, parent, root]).run ⟨H, S.set k s⟩ =
      after Dmr.Etsi.DmrCsbk.ServiceOptions.read s (fun e s' => .raise e ⟨H, S.set k s'⟩)
        (built Dmr.Etsi.DmrCsbk.ServiceOptions.toPy k parent root H S) := by
  rw [construct_eq library _ "Etsi.DmrCsbk.ServiceOptions" _ _ DmrCsbk_ServiceOptions_class rfl rfl]
  py_run [onStream_set _ _ _ _ hk, hk, Dmr.Etsi.DmrCsbk.ServiceOptions.read, Dmr.Etsi.DmrCsbk.ServiceOptions.toPy]

@[py] theorem DmrCsbk_ServiceOptions_place (io parent root : Val) (b : Nat) (x : Dmr.Etsi.DmrCsbk.ServiceOptions) :
    place io parent root b x.toPy = (.obj b, placeObj io parent root b x.toPy) :=
  place_part _ _ _ _ _ _ (by decide)

theorem DmrCsbk_UnitToUnitVoiceRequestData_class : library.class "Etsi.DmrCsbk.UnitToUnitVoiceRequestData" = some Source.Etsi.DmrCsbk.UnitToUnitVoiceRequestData := class_at 18 _ DmrCsbk.file 1 Source.Etsi.DmrCsbk.UnitToUnitVoiceRequestData rfl

/-- okdmr/kaitai/etsi/dmr_csbk.py:87-98 against `Dmr.Etsi.DmrCsbk.UnitToUnitVoiceRequestData`. -/
@[py] theorem DmrCsbk_UnitToUnitVoiceRequestData_builds (n : Nat) (H : List Obj) (S : List Stream) (k : Nat) (hk : k < S.length) (s : Stream)
    (parent root : Val) : ((calls library (n + 5)).construct "Etsi.DmrCsbk.UnitToUnitVoiceRequestData" [.io k, parent, root]).run ⟨H, S.set k s⟩ =
      after Dmr.Etsi.DmrCsbk.UnitToUnitVoiceRequestData.read s (fun e s' => .raise e ⟨H, S.set k s'⟩)
        (built Dmr.Etsi.DmrCsbk.UnitToUnitVoiceRequestData.toPy k parent root H S) := by
  rw [construct_eq library _ "Etsi.DmrCsbk.UnitToUnitVoiceRequestData" _ _ DmrCsbk_UnitToUnitVoiceRequestData_class rfl rfl]
  py_run [onStream_set _ _ _ _ hk, hk, Dmr.Etsi.DmrCsbk.UnitToUnitVoiceRequestData.read, Dmr.Etsi.DmrCsbk.UnitToUnitVoiceRequestData.toPy]

@[py] theorem DmrCsbk_UnitToUnitVoiceRequestData_place (io parent root : Val) (b : Nat) (x : Dmr.Etsi.DmrCsbk.UnitToUnitVoiceRequestData) :
    place io parent root b x.toPy = (.obj b, placeObj io parent root b x.toPy) :=
  place_part _ _ _ _ _ _ (by decide)

theorem DmrCsbk_PreambleData_class : library.class "Etsi.DmrCsbk.PreambleData" = some Source.Etsi.DmrCsbk.PreambleData := class_at 18 _ DmrCsbk.file 3 Source.Etsi.DmrCsbk.PreambleData rfl

/-- okdmr/kaitai/etsi/dmr_csbk.py:115-132 against `Dmr.Etsi.DmrCsbk.PreambleData`. -/
@[py] theorem DmrCsbk_PreambleData_builds (n : Nat) (H : List Obj) (S : List Stream) (k : Nat) (hk : k < S.length) (s : Stream)
    (parent root : Val) : ((calls library (n + 3)).construct "Etsi.DmrCsbk.PreambleData" [.io k, parent, root]).run ⟨H, S.set k s⟩ =
      after Dmr.Etsi.DmrCsbk.PreambleData.read s (fun e s' => .raise e ⟨H, S.set k s'⟩)
        (built Dmr.Etsi.DmrCsbk.PreambleData.toPy k parent root H S) := by
  rw [construct_eq library _ "Etsi.DmrCsbk.PreambleData" _ _ DmrCsbk_PreambleData_class rfl rfl]
  py_run [onStream_set _ _ _ _ hk, hk, Dmr.Etsi.DmrCsbk.PreambleData.read, Dmr.Etsi.DmrCsbk.PreambleData.toPy]

@[py] theorem DmrCsbk_PreambleData_place (io parent root : Val) (b : Nat) (x : Dmr.Etsi.DmrCsbk.PreambleData) :
    place io parent root b x.toPy = (.obj b, placeObj io parent root b x.toPy) :=
  place_part _ _ _ _ _ _ (by decide)

theorem DmrCsbk_ChannelTimingData_class : library.class "Etsi.DmrCsbk.ChannelTimingData" = some Source.Etsi.DmrCsbk.ChannelTimingData := class_at 18 _ DmrCsbk.file 4 Source.Etsi.DmrCsbk.ChannelTimingData rfl

/-- okdmr/kaitai/etsi/dmr_csbk.py:134-151 against `Dmr.Etsi.DmrCsbk.ChannelTimingData`. -/
@[py] theorem DmrCsbk_ChannelTimingData_builds (n : Nat) (H : List Obj) (S : List Stream) (k : Nat) (hk : k < S.length) (s : Stream)
    (parent root : Val) : ((calls library (n + 3)).construct "Etsi.DmrCsbk.ChannelTimingData" [.io k, parent, root]).run ⟨H, S.set k s⟩ =
      after Dmr.Etsi.DmrCsbk.ChannelTimingData.read s (fun e s' => .raise e ⟨H, S.set k s'⟩)
        (built Dmr.Etsi.DmrCsbk.ChannelTimingData.toPy k parent root H S) := by
  rw [construct_eq library _ "Etsi.DmrCsbk.ChannelTimingData" _ _ DmrCsbk_ChannelTimingData_class rfl rfl]
  py_run [onStream_set _ _ _ _ hk, hk, Dmr.Etsi.DmrCsbk.ChannelTimingData.read, Dmr.Etsi.DmrCsbk.ChannelTimingData.toPy]

@[py] theorem DmrCsbk_ChannelTimingData_place (io parent root : Val) (b : Nat) (x : Dmr.Etsi.DmrCsbk.ChannelTimingData) :
    place io parent root b x.toPy = (.obj b, placeObj io parent root b x.toPy) :=
  place_part _ _ _ _ _ _ (by decide)

theorem DmrCsbk_BsOutboundActivationData_class : library.class "Etsi.DmrCsbk.BsOutboundActivationData" = some Source.Etsi.DmrCsbk.BsOutboundActivationData := class_at 18 _ DmrCsbk.file 5 Source.Etsi.DmrCsbk.BsOutboundActivationData rfl

/-- okdmr/kaitai/etsi/dmr_csbk.py:153-163 against `Dmr.Etsi.DmrCsbk.BsOutboundActivationData`. -/
@[py] theorem DmrCsbk_BsOutboundActivationData_builds (n : Nat) (H : List Obj) (S : List Stream) (k : Nat) (hk : k < S.length) (s : Stream)
    (parent root : Val) : ((calls library (n + 3)).construct "Etsi.DmrCsbk.BsOutboundActivationData" [.io k, parent, root]).run ⟨H, S.set k s⟩ =
      after Dmr.Etsi.DmrCsbk.BsOutboundActivationData.read s (fun e s' => .raise e ⟨H, S.set k s'⟩)
        (built Dmr.Etsi.DmrCsbk.BsOutboundActivationData.toPy k parent root H S) := by
  rw [construct_eq library _ "Etsi.DmrCsbk.BsOutboundActivationData" _ _ DmrCsbk_BsOutboundActivationData_class rfl rfl]
  py_run [onStream_set _ _ _ _ hk, hk, Dmr.Etsi.DmrCsbk.BsOutboundActivationData.read, Dmr.Etsi.DmrCsbk.BsOutboundActivationData.toPy]

@[py] theorem DmrCsbk_BsOutboundActivationData_place (io parent root : Val) (b : Nat) (x : Dmr.Etsi.DmrCsbk.BsOutboundActivationData) :
    place io parent root b x.toPy = (.obj b, placeObj io parent root b x.toPy) :=
  place_part _ _ _ _ _ _ (by decide)

theorem DmrCsbk_UnitToUnitVoiceAnswerData_class : library.class "Etsi.DmrCsbk.UnitToUnitVoiceAnswerData" = some Source.Etsi.DmrCsbk.UnitToUnitVoiceAnswerData := class_at 18 _ DmrCsbk.file 6 Source.Etsi.DmrCsbk.UnitToUnitVoiceAnswerData rfl

/-- okdmr/kaitai/etsi/dmr_csbk.py:165-178 against `Dmr.Etsi.DmrCsbk.UnitToUnitVoiceAnswerData`. -/
@[py] theorem DmrCsbk_UnitToUnitVoiceAnswerData_builds (n : Nat) (H : List Obj) (S : List Stream) (k : Nat) (hk : k < S.length) (s : Stream)
    (parent root : Val) : ((calls library (n + 5)).construct "Etsi.DmrCsbk.UnitToUnitVoiceAnswerData" [.io k, parent, root]).run ⟨H, S.set k s⟩ =
      after Dmr.Etsi.DmrCsbk.UnitToUnitVoiceAnswerData.read s (fun e s' => .raise e ⟨H, S.set k s'⟩)
        (built Dmr.Etsi.DmrCsbk.UnitToUnitVoiceAnswerData.toPy k parent root H S) := by
  rw [construct_eq library _ "Etsi.DmrCsbk.UnitToUnitVoiceAnswerData" _ _ DmrCsbk_UnitToUnitVoiceAnswerData_class rfl rfl]
  py_run [onStream_set _ _ _ _ hk, hk, Dmr.Etsi.DmrCsbk.UnitToUnitVoiceAnswerData.read, Dmr.Etsi.DmrCsbk.UnitToUnitVoiceAnswerData.toPy]

@[py] theorem DmrCsbk_UnitToUnitVoiceAnswerData_place (io parent root : Val) (b : Nat) (x : Dmr.Etsi.DmrCsbk.UnitToUnitVoiceAnswerData) :
    place io parent root b x.toPy = (.obj b, placeObj io parent root b x.toPy) :=
  place_part _ _ _ _ _ _ (by decide)

theorem DmrCsbk_class : library.class "Etsi.DmrCsbk" = some Source.Etsi.DmrCsbk := class_at 18 _ DmrCsbk.file 7 Source.Etsi.DmrCsbk rfl

/-- okdmr/kaitai/etsi/dmr_csbk.py:15-178 against `Dmr.Etsi.DmrCsbk`. -/
@[py] theorem DmrCsbk_builds (n : Nat) (H : List Obj) (S : List Stream) (k : Nat) (hk : k < S.length) (s : Stream)
    (parent root : Val) : ((calls library (n + 7)).construct "Etsi.DmrCsbk" [.io k, parent, root]).run ⟨H, S.set k s⟩ =
      after Dmr.Etsi.DmrCsbk.read s (fun e s' => .raise e ⟨H, S.set k s'⟩)
        (built Dmr.Etsi.DmrCsbk.toPy k parent root H S) := by
  rw [construct_eq library _ "Etsi.DmrCsbk" _ _ DmrCsbk_class rfl rfl]
  py_run [onStream_set _ _ _ _ hk, hk, Dmr.Etsi.DmrCsbk.read, Dmr.Etsi.DmrCsbk.toPy, Dmr.Etsi.DmrCsbk.readCsbkData, Dmr.Etsi.DmrCsbk.CsbkDataUnion.toPy]

@[py] theorem DmrCsbk_short (n k : Nat) : (calls library (n + 7)).construct "Etsi.DmrCsbk" [.io k] =
    (calls library (n + 7)).construct "Etsi.DmrCsbk" [.io k, .pv .none, .pv .none] := construct_short _ _ _ _ DmrCsbk_class rfl _

@[py] theorem DmrCsbk_place (io parent root : Val) (b : Nat) (x : Dmr.Etsi.DmrCsbk) :
    place io parent root b x.toPy = (.obj b, placeObj io (.pv .none) (.obj b) b x.toPy) :=
  place_file _ _ _ _ _ _ (by decide)

end Dmr.Py.ConformEtsi
