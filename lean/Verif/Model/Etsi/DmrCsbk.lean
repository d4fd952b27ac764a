import Verif.Runtime
/-
Model of okdmr/kaitai/etsi/dmr_csbk.py (generated by tools/py2lean.py from the Python AST;
definitions marked "hand-written" are not).
-/

namespace Dmr.Etsi

/-- okdmr/kaitai/etsi/dmr_csbk.py:18-24 `class CsbkoTypes(Enum)`. -/
inductive DmrCsbk.CsbkoTypes where
  | unit_to_unit_voice_service_request
  | unit_to_unit_voice_service_answer_response
  | channel_timing
  | negative_acknowledge_response
  | bs_outbound_activation_csbk_pdu
  | preamble
  deriving DecidableEq

/-- okdmr/kaitai/etsi/dmr_csbk.py:18-24 values of `CsbkoTypes`. -/
def DmrCsbk.CsbkoTypes.toNat : DmrCsbk.CsbkoTypes → Nat
  | .unit_to_unit_voice_service_request => 4
  | .unit_to_unit_voice_service_answer_response => 5
  | .channel_timing => 7
  | .negative_acknowledge_response => 38
  | .bs_outbound_activation_csbk_pdu => 56
  | .preamble => 61

/-- okdmr/kaitai/etsi/dmr_csbk.py:18-24 `CsbkoTypes` as a Python enumeration. -/
instance DmrCsbk.CsbkoTypes.instPyEnum : PyEnum DmrCsbk.CsbkoTypes where
  all := [.unit_to_unit_voice_service_request, .unit_to_unit_voice_service_answer_response, .channel_timing, .negative_acknowledge_response, .bs_outbound_activation_csbk_pdu, .preamble]
  value := DmrCsbk.CsbkoTypes.toNat

/-- okdmr/kaitai/etsi/dmr_csbk.py:26-28 `class CsbkDataOrCsbk(Enum)`. -/
inductive DmrCsbk.CsbkDataOrCsbk where
  | csbk_content_follows_preambles
  | data_content_follows_preambles
  deriving DecidableEq

/-- okdmr/kaitai/etsi/dmr_csbk.py:26-28 values of `CsbkDataOrCsbk`. -/
def DmrCsbk.CsbkDataOrCsbk.toNat : DmrCsbk.CsbkDataOrCsbk → Nat
  | .csbk_content_follows_preambles => 0
  | .data_content_follows_preambles => 1

/-- okdmr/kaitai/etsi/dmr_csbk.py:26-28 `CsbkDataOrCsbk` as a Python enumeration. -/
instance DmrCsbk.CsbkDataOrCsbk.instPyEnum : PyEnum DmrCsbk.CsbkDataOrCsbk where
  all := [.csbk_content_follows_preambles, .data_content_follows_preambles]
  value := DmrCsbk.CsbkDataOrCsbk.toNat

/-- okdmr/kaitai/etsi/dmr_csbk.py:30-32 `class CsbkGroupOrIndividual(Enum)`. -/
inductive DmrCsbk.CsbkGroupOrIndividual where
  | target_address_is_an_individual
  | target_address_is_a_group
  deriving DecidableEq

/-- okdmr/kaitai/etsi/dmr_csbk.py:30-32 values of `CsbkGroupOrIndividual`. -/
def DmrCsbk.CsbkGroupOrIndividual.toNat : DmrCsbk.CsbkGroupOrIndividual → Nat
  | .target_address_is_an_individual => 0
  | .target_address_is_a_group => 1

/-- okdmr/kaitai/etsi/dmr_csbk.py:30-32 `CsbkGroupOrIndividual` as a Python enumeration. -/
instance DmrCsbk.CsbkGroupOrIndividual.instPyEnum : PyEnum DmrCsbk.CsbkGroupOrIndividual where
  all := [.target_address_is_an_individual, .target_address_is_a_group]
  value := DmrCsbk.CsbkGroupOrIndividual.toNat

/-- okdmr/kaitai/etsi/dmr_csbk.py:34-36 `class AnswerResponse(Enum)`. -/
inductive DmrCsbk.AnswerResponse where
  | proceed
  | deny
  deriving DecidableEq

/-- okdmr/kaitai/etsi/dmr_csbk.py:34-36 values of `AnswerResponse`. -/
def DmrCsbk.AnswerResponse.toNat : DmrCsbk.AnswerResponse → Nat
  | .proceed => 32
  | .deny => 33

/-- okdmr/kaitai/etsi/dmr_csbk.py:34-36 `AnswerResponse` as a Python enumeration. -/
instance DmrCsbk.AnswerResponse.instPyEnum : PyEnum DmrCsbk.AnswerResponse where
  all := [.proceed, .deny]
  value := DmrCsbk.AnswerResponse.toNat

/-- okdmr/kaitai/etsi/dmr_csbk.py:79-85 attributes of `DmrCsbk.NegativeAckResponseData`. -/
structure DmrCsbk.NegativeAckResponseData where
  additional_information_field : Bool
  source_type : Bool
  service_type : Nat
  reason_code : Nat
  source_address : Nat
  target_address : Nat
  deriving DecidableEq

/-- okdmr/kaitai/etsi/dmr_csbk.py:79-85 `DmrCsbk.NegativeAckResponseData._read`. -/
def DmrCsbk.NegativeAckResponseData.read : Rd DmrCsbk.NegativeAckResponseData := do
  let additional_information_field ← readFlag
  let source_type ← readFlag
  let service_type ← readBitsIntBe 6
  let reason_code ← readBitsIntBe 8
  let source_address ← readBitsIntBe 24
  let target_address ← readBitsIntBe 24
  return { additional_information_field, source_type, service_type, reason_code, source_address, target_address }

/-- okdmr/kaitai/etsi/dmr_csbk.py:107-113 attributes of `DmrCsbk.ServiceOptions`. -/
structure DmrCsbk.ServiceOptions where
  is_emergency_service : Bool
  privacy : Bool
  reserved : Nat
  is_broadcast_service : Bool
  is_open_voice_call_mode : Bool
  priority_level : Nat
  deriving DecidableEq

/-- okdmr/kaitai/etsi/dmr_csbk.py:107-113 `DmrCsbk.ServiceOptions._read`. -/
def DmrCsbk.ServiceOptions.read : Rd DmrCsbk.ServiceOptions := do
  let is_emergency_service ← readFlag
  let privacy ← readFlag
  let reserved ← readBitsIntBe 2
  let is_broadcast_service ← readFlag
  let is_open_voice_call_mode ← readFlag
  let priority_level ← readBitsIntBe 2
  return { is_emergency_service, privacy, reserved, is_broadcast_service, is_open_voice_call_mode, priority_level }

/-- okdmr/kaitai/etsi/dmr_csbk.py:94-98 attributes of `DmrCsbk.UnitToUnitVoiceRequestData`. -/
structure DmrCsbk.UnitToUnitVoiceRequestData where
  service_options : DmrCsbk.ServiceOptions
  reserved : Nat
  target_address : Nat
  source_address : Nat
  deriving DecidableEq

/-- okdmr/kaitai/etsi/dmr_csbk.py:94-98 `DmrCsbk.UnitToUnitVoiceRequestData._read`. -/
def DmrCsbk.UnitToUnitVoiceRequestData.read : Rd DmrCsbk.UnitToUnitVoiceRequestData := do
  let service_options ← DmrCsbk.ServiceOptions.read
  let reserved ← readBitsIntBe 8
  let target_address ← readBitsIntBe 24
  let source_address ← readBitsIntBe 24
  return { service_options, reserved, target_address, source_address }

/-- okdmr/kaitai/etsi/dmr_csbk.py:122-132 attributes of `DmrCsbk.PreambleData`. -/
structure DmrCsbk.PreambleData where
  preamble_data_or_csbk : EnumVal DmrCsbk.CsbkDataOrCsbk
  group_or_individual : EnumVal DmrCsbk.CsbkGroupOrIndividual
  preamble_reserved : Nat
  preamble_csbk_blocks_to_follow : Nat
  target_address : Nat
  source_address : Nat
  deriving DecidableEq

/-- okdmr/kaitai/etsi/dmr_csbk.py:122-132 `DmrCsbk.PreambleData._read`. -/
def DmrCsbk.PreambleData.read : Rd DmrCsbk.PreambleData := do
  let preamble_data_or_csbk ← asEnum DmrCsbk.CsbkDataOrCsbk (readBitsIntBe 1)
  let group_or_individual ← asEnum DmrCsbk.CsbkGroupOrIndividual (readBitsIntBe 1)
  let preamble_reserved ← readBitsIntBe 6
  let preamble_csbk_blocks_to_follow ← readBitsIntBe 8
  let target_address ← readBitsIntBe 24
  let source_address ← readBitsIntBe 24
  return { preamble_data_or_csbk, group_or_individual, preamble_reserved, preamble_csbk_blocks_to_follow, target_address, source_address }

/-- okdmr/kaitai/etsi/dmr_csbk.py:141-151 attributes of `DmrCsbk.ChannelTimingData`. -/
structure DmrCsbk.ChannelTimingData where
  sync_age : Nat
  generation : Nat
  leader_identifier : Nat
  new_leader : Bool
  leader_dynamic_identifier : Nat
  channel_timing_op1 : Bool
  source_identifier : Nat
  reserved : Bool
  source_dynamic_identifier : Nat
  channel_timing_op0 : Bool
  deriving DecidableEq

/-- okdmr/kaitai/etsi/dmr_csbk.py:141-151 `DmrCsbk.ChannelTimingData._read`. -/
def DmrCsbk.ChannelTimingData.read : Rd DmrCsbk.ChannelTimingData := do
  let sync_age ← readBitsIntBe 11
  let generation ← readBitsIntBe 5
  let leader_identifier ← readBitsIntBe 20
  let new_leader ← readFlag
  let leader_dynamic_identifier ← readBitsIntBe 2
  let channel_timing_op1 ← readFlag
  let source_identifier ← readBitsIntBe 20
  let reserved ← readFlag
  let source_dynamic_identifier ← readBitsIntBe 2
  let channel_timing_op0 ← readFlag
  return { sync_age, generation, leader_identifier, new_leader, leader_dynamic_identifier, channel_timing_op1, source_identifier, reserved, source_dynamic_identifier, channel_timing_op0 }

/-- okdmr/kaitai/etsi/dmr_csbk.py:160-163 attributes of `DmrCsbk.BsOutboundActivationData`. -/
structure DmrCsbk.BsOutboundActivationData where
  reserved : Nat
  bs_address : Nat
  source_address : Nat
  deriving DecidableEq

/-- okdmr/kaitai/etsi/dmr_csbk.py:160-163 `DmrCsbk.BsOutboundActivationData._read`. -/
def DmrCsbk.BsOutboundActivationData.read : Rd DmrCsbk.BsOutboundActivationData := do
  let reserved ← readBitsIntBe 16
  let bs_address ← readBitsIntBe 24
  let source_address ← readBitsIntBe 24
  return { reserved, bs_address, source_address }

/-- okdmr/kaitai/etsi/dmr_csbk.py:172-178 attributes of `DmrCsbk.UnitToUnitVoiceAnswerData`. -/
structure DmrCsbk.UnitToUnitVoiceAnswerData where
  service_options : DmrCsbk.ServiceOptions
  answer_response : EnumVal DmrCsbk.AnswerResponse
  target_address : Nat
  source_address : Nat
  deriving DecidableEq

/-- okdmr/kaitai/etsi/dmr_csbk.py:172-178 `DmrCsbk.UnitToUnitVoiceAnswerData._read`. -/
def DmrCsbk.UnitToUnitVoiceAnswerData.read : Rd DmrCsbk.UnitToUnitVoiceAnswerData := do
  let service_options ← DmrCsbk.ServiceOptions.read
  let answer_response ← asEnum DmrCsbk.AnswerResponse (readBitsIntBe 8)
  let target_address ← readBitsIntBe 24
  let source_address ← readBitsIntBe 24
  return { service_options, answer_response, target_address, source_address }

/-- okdmr/kaitai/etsi/dmr_csbk.py:54-70 possible objects in `DmrCsbk.csbk_data`. -/
inductive DmrCsbk.CsbkDataUnion where
  | unitToUnitVoiceAnswerData (x : DmrCsbk.UnitToUnitVoiceAnswerData)
  | preambleData (x : DmrCsbk.PreambleData)
  | channelTimingData (x : DmrCsbk.ChannelTimingData)
  | unitToUnitVoiceRequestData (x : DmrCsbk.UnitToUnitVoiceRequestData)
  | bsOutboundActivationData (x : DmrCsbk.BsOutboundActivationData)
  | negativeAckResponseData (x : DmrCsbk.NegativeAckResponseData)
  deriving DecidableEq

/-- okdmr/kaitai/etsi/dmr_csbk.py:53-70 the `if _on == ...` chain of `DmrCsbk._read`. -/
def DmrCsbk.readCsbkData (on : EnumVal DmrCsbk.CsbkoTypes) : Rd (Option DmrCsbk.CsbkDataUnion) :=
  if on = .known .unit_to_unit_voice_service_answer_response then do let x ← DmrCsbk.UnitToUnitVoiceAnswerData.read; return some (.unitToUnitVoiceAnswerData x)
  else if on = .known .preamble then do let x ← DmrCsbk.PreambleData.read; return some (.preambleData x)
  else if on = .known .channel_timing then do let x ← DmrCsbk.ChannelTimingData.read; return some (.channelTimingData x)
  else if on = .known .unit_to_unit_voice_service_request then do let x ← DmrCsbk.UnitToUnitVoiceRequestData.read; return some (.unitToUnitVoiceRequestData x)
  else if on = .known .bs_outbound_activation_csbk_pdu then do let x ← DmrCsbk.BsOutboundActivationData.read; return some (.bsOutboundActivationData x)
  else if on = .known .negative_acknowledge_response then do let x ← DmrCsbk.NegativeAckResponseData.read; return some (.negativeAckResponseData x)
  else return none

/-- okdmr/kaitai/etsi/dmr_csbk.py:44-70 attributes of `DmrCsbk`. -/
structure DmrCsbk where
  last_block : Bool
  protect_flag : Bool
  csbk_opcode : EnumVal DmrCsbk.CsbkoTypes
  feature_set_id : Nat
  csbk_data : Option DmrCsbk.CsbkDataUnion
  deriving DecidableEq

/-- okdmr/kaitai/etsi/dmr_csbk.py:44-70 `DmrCsbk._read`. -/
def DmrCsbk.read : Rd DmrCsbk := do
  let last_block ← readFlag
  let protect_flag ← readFlag
  let csbk_opcode ← asEnum DmrCsbk.CsbkoTypes (readBitsIntBe 6)
  let feature_set_id ← readBitsIntBe 8
  alignToByte
  let csbk_data ← DmrCsbk.readCsbkData csbk_opcode
  return { last_block, protect_flag, csbk_opcode, feature_set_id, csbk_data }

end Dmr.Etsi
