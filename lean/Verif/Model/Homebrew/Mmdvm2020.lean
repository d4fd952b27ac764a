import Verif.Runtime
/-
Model of okdmr/kaitai/homebrew/mmdvm2020.py (generated by tools/py2lean.py from the Python AST;
definitions marked "hand-written" are not).
-/

namespace Dmr.Homebrew

/-- okdmr/kaitai/homebrew/mmdvm2020.py:18-22 `class TalkerAliasTypes(Enum)`. -/
inductive Mmdvm2020.TalkerAliasTypes where
  | talker_alias_header
  | talker_alias_block_1
  | talker_alias_block_2
  | talker_alias_block_3
  deriving DecidableEq

/-- okdmr/kaitai/homebrew/mmdvm2020.py:18-22 values of `TalkerAliasTypes`. -/
def Mmdvm2020.TalkerAliasTypes.toNat : Mmdvm2020.TalkerAliasTypes → Nat
  | .talker_alias_header => 0
  | .talker_alias_block_1 => 1
  | .talker_alias_block_2 => 2
  | .talker_alias_block_3 => 3

/-- okdmr/kaitai/homebrew/mmdvm2020.py:18-22 `TalkerAliasTypes` as a Python enumeration. -/
instance Mmdvm2020.TalkerAliasTypes.instPyEnum : PyEnum Mmdvm2020.TalkerAliasTypes where
  all := [.talker_alias_header, .talker_alias_block_1, .talker_alias_block_2, .talker_alias_block_3]
  value := Mmdvm2020.TalkerAliasTypes.toNat

/-- okdmr/kaitai/homebrew/mmdvm2020.py:24-28 `class FrameTypes(Enum)`. -/
inductive Mmdvm2020.FrameTypes where
  | voice_data
  | voice_sync
  | data_or_data_sync
  | unused
  deriving DecidableEq

/-- okdmr/kaitai/homebrew/mmdvm2020.py:24-28 values of `FrameTypes`. -/
def Mmdvm2020.FrameTypes.toNat : Mmdvm2020.FrameTypes → Nat
  | .voice_data => 0
  | .voice_sync => 1
  | .data_or_data_sync => 2
  | .unused => 3

/-- okdmr/kaitai/homebrew/mmdvm2020.py:24-28 `FrameTypes` as a Python enumeration. -/
instance Mmdvm2020.FrameTypes.instPyEnum : PyEnum Mmdvm2020.FrameTypes where
  all := [.voice_data, .voice_sync, .data_or_data_sync, .unused]
  value := Mmdvm2020.FrameTypes.toNat

/-- okdmr/kaitai/homebrew/mmdvm2020.py:30-32 `class CallTypes(Enum)`. -/
inductive Mmdvm2020.CallTypes where
  | group_call
  | private_call
  deriving DecidableEq

/-- okdmr/kaitai/homebrew/mmdvm2020.py:30-32 values of `CallTypes`. -/
def Mmdvm2020.CallTypes.toNat : Mmdvm2020.CallTypes → Nat
  | .group_call => 0
  | .private_call => 1

/-- okdmr/kaitai/homebrew/mmdvm2020.py:30-32 `CallTypes` as a Python enumeration. -/
instance Mmdvm2020.CallTypes.instPyEnum : PyEnum Mmdvm2020.CallTypes where
  all := [.group_call, .private_call]
  value := Mmdvm2020.CallTypes.toNat

/-- okdmr/kaitai/homebrew/mmdvm2020.py:34-42 `class PositionErrors(Enum)`. -/
inductive Mmdvm2020.PositionErrors where
  | less_than_2m
  | less_than_20m
  | less_than_200m
  | less_than_2km
  | less_than_20km
  | less_than_or_equal_200km
  | more_than_200km
  | position_error_unknown_or_invalid
  deriving DecidableEq

/-- okdmr/kaitai/homebrew/mmdvm2020.py:34-42 values of `PositionErrors`. -/
def Mmdvm2020.PositionErrors.toNat : Mmdvm2020.PositionErrors → Nat
  | .less_than_2m => 0
  | .less_than_20m => 1
  | .less_than_200m => 2
  | .less_than_2km => 3
  | .less_than_20km => 4
  | .less_than_or_equal_200km => 5
  | .more_than_200km => 6
  | .position_error_unknown_or_invalid => 7

/-- okdmr/kaitai/homebrew/mmdvm2020.py:34-42 `PositionErrors` as a Python enumeration. -/
instance Mmdvm2020.PositionErrors.instPyEnum : PyEnum Mmdvm2020.PositionErrors where
  all := [.less_than_2m, .less_than_20m, .less_than_200m, .less_than_2km, .less_than_20km, .less_than_or_equal_200km, .more_than_200km, .position_error_unknown_or_invalid]
  value := Mmdvm2020.PositionErrors.toNat

/-- okdmr/kaitai/homebrew/mmdvm2020.py:44-46 `class Timeslots(Enum)`. -/
inductive Mmdvm2020.Timeslots where
  | timeslot_1
  | timeslot_2
  deriving DecidableEq

/-- okdmr/kaitai/homebrew/mmdvm2020.py:44-46 values of `Timeslots`. -/
def Mmdvm2020.Timeslots.toNat : Mmdvm2020.Timeslots → Nat
  | .timeslot_1 => 0
  | .timeslot_2 => 1

/-- okdmr/kaitai/homebrew/mmdvm2020.py:44-46 `Timeslots` as a Python enumeration. -/
instance Mmdvm2020.Timeslots.instPyEnum : PyEnum Mmdvm2020.Timeslots where
  all := [.timeslot_1, .timeslot_2]
  value := Mmdvm2020.Timeslots.toNat

/-- okdmr/kaitai/homebrew/mmdvm2020.py:103-112 attributes of `Mmdvm2020.TypeMasterPong`. -/
structure Mmdvm2020.TypeMasterPong where
  magic : Bytes
  repeater_id : Nat
  deriving DecidableEq

/-- okdmr/kaitai/homebrew/mmdvm2020.py:103-112 `Mmdvm2020.TypeMasterPong._read`. -/
def Mmdvm2020.TypeMasterPong.read : Rd Mmdvm2020.TypeMasterPong := do
  let magic ← readBytes 3
  validateEq magic [0x4f, 0x4e, 0x47] "/types/type_master_pong/seq/0"
  let repeater_id ← readU4be
  return { magic, repeater_id }

/-- okdmr/kaitai/homebrew/mmdvm2020.py:123-130 attributes of `Mmdvm2020.TypeRadioPosition`. -/
structure Mmdvm2020.TypeRadioPosition where
  radio_id : Nat
  reserved : Nat
  position_error : EnumVal Mmdvm2020.PositionErrors
  longitude : Nat
  latitude : Nat
  deriving DecidableEq

/-- okdmr/kaitai/homebrew/mmdvm2020.py:123-130 `Mmdvm2020.TypeRadioPosition._read`. -/
def Mmdvm2020.TypeRadioPosition.read : Rd Mmdvm2020.TypeRadioPosition := do
  let radio_id ← readBitsIntBe 24
  let reserved ← readBitsIntBe 4
  let position_error ← asEnum Mmdvm2020.PositionErrors (readBitsIntBe 3)
  let longitude ← readBitsIntBe 25
  let latitude ← readBitsIntBe 24
  return { radio_id, reserved, position_error, longitude, latitude }

/-- okdmr/kaitai/homebrew/mmdvm2020.py:139-145 attributes of `Mmdvm2020.TypeTalkerAlias`. -/
structure Mmdvm2020.TypeTalkerAlias where
  radio_id : Nat
  talker_alias_type : EnumVal Mmdvm2020.TalkerAliasTypes
  talker_alias : PyStr
  deriving DecidableEq

/-- okdmr/kaitai/homebrew/mmdvm2020.py:139-145 `Mmdvm2020.TypeTalkerAlias._read`. -/
def Mmdvm2020.TypeTalkerAlias.read : Rd Mmdvm2020.TypeTalkerAlias := do
  let radio_id ← readBitsIntBe 24
  alignToByte
  let talker_alias_type ← asEnum Mmdvm2020.TalkerAliasTypes (readU1)
  let talker_alias ← decodeWith decodeAscii (readBytes 8)
  return { radio_id, talker_alias_type, talker_alias }

/-- okdmr/kaitai/homebrew/mmdvm2020.py:307-313 attributes of `Mmdvm2020.TypeRepeaterClosing`. -/
structure Mmdvm2020.TypeRepeaterClosing where
  magic : Bytes
  repeater_id : Nat
  deriving DecidableEq

/-- okdmr/kaitai/homebrew/mmdvm2020.py:307-313 `Mmdvm2020.TypeRepeaterClosing._read`. -/
def Mmdvm2020.TypeRepeaterClosing.read : Rd Mmdvm2020.TypeRepeaterClosing := do
  let magic ← readBytes 1
  validateEq magic [0x4c] "/types/type_repeater_closing/seq/0"
  let repeater_id ← readU4be
  return { magic, repeater_id }

/-- okdmr/kaitai/homebrew/mmdvm2020.py:322-338 attributes of `Mmdvm2020.TypeRepeaterConfiguration`. -/
structure Mmdvm2020.TypeRepeaterConfiguration where
  repeater_id : Nat
  call_sign : PyStr
  rx_freq : PyStr
  tx_freq : PyStr
  tx_power : PyStr
  color_code : PyStr
  latitude : PyStr
  longitude : PyStr
  antenna_height_above_ground : PyStr
  location : PyStr
  description : PyStr
  slots : PyStr
  url : PyStr
  software_id : PyStr
  package_id : PyStr
  unparsed_data : PyStr
  deriving DecidableEq

/-- okdmr/kaitai/homebrew/mmdvm2020.py:322-338 `Mmdvm2020.TypeRepeaterConfiguration._read`. -/
def Mmdvm2020.TypeRepeaterConfiguration.read : Rd Mmdvm2020.TypeRepeaterConfiguration := do
  let repeater_id ← readU4be
  let call_sign ← decodeWith decodeAscii (readBytes 8)
  let rx_freq ← decodeWith decodeAscii (readBytes 9)
  let tx_freq ← decodeWith decodeAscii (readBytes 9)
  let tx_power ← decodeWith decodeAscii (readBytes 2)
  let color_code ← decodeWith decodeAscii (readBytes 2)
  let latitude ← decodeWith decodeAscii (readBytes 8)
  let longitude ← decodeWith decodeAscii (readBytes 9)
  let antenna_height_above_ground ← decodeWith decodeAscii (readBytes 3)
  let location ← decodeWith decodeAscii (readBytes 20)
  let description ← decodeWith decodeAscii (readBytes 19)
  let slots ← decodeWith decodeAscii (readBytes 1)
  let url ← decodeWith decodeAscii (readBytes 124)
  let software_id ← decodeWith decodeAscii (readBytes 40)
  let package_id ← decodeWith decodeAscii (readBytes 40)
  let unparsed_data ← decodeWith decodeAscii (readBytesFull)
  return { repeater_id, call_sign, rx_freq, tx_freq, tx_power, color_code, latitude, longitude, antenna_height_above_ground, location, description, slots, url, software_id, package_id, unparsed_data }

/-- okdmr/kaitai/homebrew/mmdvm2020.py:154-161 possible objects in `TypeRepeaterConfigurationOrClosing.data`. -/
inductive Mmdvm2020.TypeRepeaterConfigurationOrClosing.DataUnion where
  | typeRepeaterClosing (x : Mmdvm2020.TypeRepeaterClosing)
  | typeRepeaterConfiguration (x : Mmdvm2020.TypeRepeaterConfiguration)
  deriving DecidableEq

/-- okdmr/kaitai/homebrew/mmdvm2020.py:154-161 attributes of `TypeRepeaterConfigurationOrClosing` (hand-written). -/
structure Mmdvm2020.TypeRepeaterConfigurationOrClosing where
  data : Mmdvm2020.TypeRepeaterConfigurationOrClosing.DataUnion
  deriving DecidableEq

/-- okdmr/kaitai/homebrew/mmdvm2020.py:358-367 property `fifth_letter` of the root object on its first access
(hand-written; the cache `_m_fifth_letter` on the root object is not recorded). -/
def Mmdvm2020.computeFifthLetter : Rd PyStr := do
  let pos ← posIo
  seekIo 4
  let v ← decodeWith decodeAscii (readBytes 1)
  seekIo pos
  return v

/-- okdmr/kaitai/homebrew/mmdvm2020.py:154-161 the `if _on == ...` chain of `Mmdvm2020.TypeRepeaterConfigurationOrClosing._read` (hand-written). -/
def Mmdvm2020.TypeRepeaterConfigurationOrClosing.readData (on : PyStr) : Rd (Mmdvm2020.TypeRepeaterConfigurationOrClosing.DataUnion) :=
  if on = "L".toList then do let x ← Mmdvm2020.TypeRepeaterClosing.read; return .typeRepeaterClosing x
  else do let x ← Mmdvm2020.TypeRepeaterConfiguration.read; return .typeRepeaterConfiguration x

/-- okdmr/kaitai/homebrew/mmdvm2020.py:154-161 `TypeRepeaterConfigurationOrClosing._read` (hand-written). -/
def Mmdvm2020.TypeRepeaterConfigurationOrClosing.read : Rd Mmdvm2020.TypeRepeaterConfigurationOrClosing := do
  let on ← Mmdvm2020.computeFifthLetter
  let data ← Mmdvm2020.TypeRepeaterConfigurationOrClosing.readData on
  return { data }

/-- okdmr/kaitai/homebrew/mmdvm2020.py:170-172 attributes of `Mmdvm2020.TypeRepeaterLoginResponse`. -/
structure Mmdvm2020.TypeRepeaterLoginResponse where
  repeater_id : Nat
  sha256 : Bytes
  deriving DecidableEq

/-- okdmr/kaitai/homebrew/mmdvm2020.py:170-172 `Mmdvm2020.TypeRepeaterLoginResponse._read`. -/
def Mmdvm2020.TypeRepeaterLoginResponse.read : Rd Mmdvm2020.TypeRepeaterLoginResponse := do
  let repeater_id ← readU4be
  let sha256 ← readBytes 32
  return { repeater_id, sha256 }

/-- okdmr/kaitai/homebrew/mmdvm2020.py:181-182 attributes of `Mmdvm2020.TypeRepeaterLoginRequest`. -/
structure Mmdvm2020.TypeRepeaterLoginRequest where
  repeater_id : Nat
  deriving DecidableEq

/-- okdmr/kaitai/homebrew/mmdvm2020.py:181-182 `Mmdvm2020.TypeRepeaterLoginRequest._read`. -/
def Mmdvm2020.TypeRepeaterLoginRequest.read : Rd Mmdvm2020.TypeRepeaterLoginRequest := do
  let repeater_id ← readU4be
  return { repeater_id }

/-- okdmr/kaitai/homebrew/mmdvm2020.py:191-200 attributes of `Mmdvm2020.TypeMasterNotAccept`. -/
structure Mmdvm2020.TypeMasterNotAccept where
  magic : Bytes
  repeater_id : Nat
  deriving DecidableEq

/-- okdmr/kaitai/homebrew/mmdvm2020.py:191-200 `Mmdvm2020.TypeMasterNotAccept._read`. -/
def Mmdvm2020.TypeMasterNotAccept.read : Rd Mmdvm2020.TypeMasterNotAccept := do
  let magic ← readBytes 2
  validateEq magic [0x41, 0x4b] "/types/type_master_not_accept/seq/0"
  let repeater_id ← readU4be
  return { magic, repeater_id }

/-- okdmr/kaitai/homebrew/mmdvm2020.py:209-210 attributes of `Mmdvm2020.TypeUnknown`. -/
structure Mmdvm2020.TypeUnknown where
  unknown_data : Bytes
  deriving DecidableEq

/-- okdmr/kaitai/homebrew/mmdvm2020.py:209-210 `Mmdvm2020.TypeUnknown._read`. -/
def Mmdvm2020.TypeUnknown.read : Rd Mmdvm2020.TypeUnknown := do
  let unknown_data ← readBytesFull
  return { unknown_data }

/-- okdmr/kaitai/homebrew/mmdvm2020.py:219-228 attributes of `Mmdvm2020.TypeMasterRepeaterAck`. -/
structure Mmdvm2020.TypeMasterRepeaterAck where
  magic : Bytes
  repeater_id_or_challenge : Nat
  deriving DecidableEq

/-- okdmr/kaitai/homebrew/mmdvm2020.py:219-228 `Mmdvm2020.TypeMasterRepeaterAck._read`. -/
def Mmdvm2020.TypeMasterRepeaterAck.read : Rd Mmdvm2020.TypeMasterRepeaterAck := do
  let magic ← readBytes 2
  validateEq magic [0x43, 0x4b] "/types/type_master_repeater_ack/seq/0"
  let repeater_id_or_challenge ← readU4be
  return { magic, repeater_id_or_challenge }

/-- okdmr/kaitai/homebrew/mmdvm2020.py:237-243 attributes of `Mmdvm2020.TypeMasterClosing`. -/
structure Mmdvm2020.TypeMasterClosing where
  magic : Bytes
  repeater_id : Nat
  deriving DecidableEq

/-- okdmr/kaitai/homebrew/mmdvm2020.py:237-243 `Mmdvm2020.TypeMasterClosing._read`. -/
def Mmdvm2020.TypeMasterClosing.read : Rd Mmdvm2020.TypeMasterClosing := do
  let magic ← readBytes 1
  validateEq magic [0x4c] "/types/type_master_closing/seq/0"
  let repeater_id ← readU4be
  return { magic, repeater_id }

/-- okdmr/kaitai/homebrew/mmdvm2020.py:252-275 attributes of `Mmdvm2020.TypeDmrData`. -/
structure Mmdvm2020.TypeDmrData where
  sequence_no : Nat
  source_id : Nat
  target_id : Nat
  repeater_id : Nat
  slot_no : EnumVal Mmdvm2020.Timeslots
  call_type : EnumVal Mmdvm2020.CallTypes
  frame_type : EnumVal Mmdvm2020.FrameTypes
  data_type : Nat
  stream_id : Nat
  dmr_data : Bytes
  bit_error_rate : Option (Nat)
  rssi : Option (Nat)
  deriving DecidableEq

/-- okdmr/kaitai/homebrew/mmdvm2020.py:252-275 `Mmdvm2020.TypeDmrData._read`. -/
def Mmdvm2020.TypeDmrData.read : Rd Mmdvm2020.TypeDmrData := do
  let sequence_no ← readU1
  let source_id ← readBitsIntBe 24
  let target_id ← readBitsIntBe 24
  alignToByte
  let repeater_id ← readU4be
  let slot_no ← asEnum Mmdvm2020.Timeslots (readBitsIntBe 1)
  let call_type ← asEnum Mmdvm2020.CallTypes (readBitsIntBe 1)
  let frame_type ← asEnum Mmdvm2020.FrameTypes (readBitsIntBe 2)
  let data_type ← readBitsIntBe 4
  alignToByte
  let stream_id ← readU4be
  let dmr_data ← readBytes 33
  let eof1 ← isEof
  let bit_error_rate ← optionally (!(eof1)) (readU1)
  let eof2 ← isEof
  let rssi ← optionally (!(eof2)) (readU1)
  return { sequence_no, source_id, target_id, repeater_id, slot_no, call_type, frame_type, data_type, stream_id, dmr_data, bit_error_rate, rssi }

/-- okdmr/kaitai/homebrew/mmdvm2020.py:286-287 attributes of `Mmdvm2020.TypeRepeaterBeacon`. -/
structure Mmdvm2020.TypeRepeaterBeacon where
  deriving DecidableEq

/-- okdmr/kaitai/homebrew/mmdvm2020.py:286-287 `Mmdvm2020.TypeRepeaterBeacon._read`. -/
def Mmdvm2020.TypeRepeaterBeacon.read : Rd Mmdvm2020.TypeRepeaterBeacon := return {}

/-- okdmr/kaitai/homebrew/mmdvm2020.py:296-298 attributes of `Mmdvm2020.TypeRepeaterOptions`. -/
structure Mmdvm2020.TypeRepeaterOptions where
  repeater_id : Nat
  options : PyStr
  deriving DecidableEq

/-- okdmr/kaitai/homebrew/mmdvm2020.py:296-298 `Mmdvm2020.TypeRepeaterOptions._read`. -/
def Mmdvm2020.TypeRepeaterOptions.read : Rd Mmdvm2020.TypeRepeaterOptions := do
  let repeater_id ← readU4be
  let options ← decodeWith decodeAscii (readBytesFull)
  return { repeater_id, options }

/-- okdmr/kaitai/homebrew/mmdvm2020.py:347-356 attributes of `Mmdvm2020.TypeRepeaterPing`. -/
structure Mmdvm2020.TypeRepeaterPing where
  magic : Bytes
  repeater_id : Nat
  deriving DecidableEq

/-- okdmr/kaitai/homebrew/mmdvm2020.py:347-356 `Mmdvm2020.TypeRepeaterPing._read`. -/
def Mmdvm2020.TypeRepeaterPing.read : Rd Mmdvm2020.TypeRepeaterPing := do
  let magic ← readBytes 3
  validateEq magic [0x49, 0x4e, 0x47] "/types/type_repeater_ping/seq/0"
  let repeater_id ← readU4be
  return { magic, repeater_id }

/-- okdmr/kaitai/homebrew/mmdvm2020.py:58-94 possible objects in `Mmdvm2020.command_data`. -/
inductive Mmdvm2020.CommandDataUnion where
  | typeRepeaterLoginRequest (x : Mmdvm2020.TypeRepeaterLoginRequest)
  | typeRadioPosition (x : Mmdvm2020.TypeRadioPosition)
  | typeMasterRepeaterAck (x : Mmdvm2020.TypeMasterRepeaterAck)
  | typeRepeaterLoginResponse (x : Mmdvm2020.TypeRepeaterLoginResponse)
  | typeRepeaterConfigurationOrClosing (x : Mmdvm2020.TypeRepeaterConfigurationOrClosing)
  | typeDmrData (x : Mmdvm2020.TypeDmrData)
  | typeMasterClosing (x : Mmdvm2020.TypeMasterClosing)
  | typeRepeaterPing (x : Mmdvm2020.TypeRepeaterPing)
  | typeRepeaterOptions (x : Mmdvm2020.TypeRepeaterOptions)
  | typeMasterPong (x : Mmdvm2020.TypeMasterPong)
  | typeRepeaterBeacon (x : Mmdvm2020.TypeRepeaterBeacon)
  | typeMasterNotAccept (x : Mmdvm2020.TypeMasterNotAccept)
  | typeTalkerAlias (x : Mmdvm2020.TypeTalkerAlias)
  deriving DecidableEq

/-- okdmr/kaitai/homebrew/mmdvm2020.py:57-94 the `if _on == ...` chain of `Mmdvm2020._read`. -/
def Mmdvm2020.readCommandData (on : PyStr) : Rd (Option Mmdvm2020.CommandDataUnion) :=
  if on = "RPTL".toList then do let x ← Mmdvm2020.TypeRepeaterLoginRequest.read; return some (.typeRepeaterLoginRequest x)
  else if on = "DMRG".toList then do let x ← Mmdvm2020.TypeRadioPosition.read; return some (.typeRadioPosition x)
  else if on = "RPTA".toList then do let x ← Mmdvm2020.TypeMasterRepeaterAck.read; return some (.typeMasterRepeaterAck x)
  else if on = "RPTK".toList then do let x ← Mmdvm2020.TypeRepeaterLoginResponse.read; return some (.typeRepeaterLoginResponse x)
  else if on = "RPTC".toList then do let x ← Mmdvm2020.TypeRepeaterConfigurationOrClosing.read; return some (.typeRepeaterConfigurationOrClosing x)
  else if on = "DMRD".toList then do let x ← Mmdvm2020.TypeDmrData.read; return some (.typeDmrData x)
  else if on = "MSTC".toList then do let x ← Mmdvm2020.TypeMasterClosing.read; return some (.typeMasterClosing x)
  else if on = "RPTP".toList then do let x ← Mmdvm2020.TypeRepeaterPing.read; return some (.typeRepeaterPing x)
  else if on = "RPTO".toList then do let x ← Mmdvm2020.TypeRepeaterOptions.read; return some (.typeRepeaterOptions x)
  else if on = "MSTP".toList then do let x ← Mmdvm2020.TypeMasterPong.read; return some (.typeMasterPong x)
  else if on = "RPTS".toList then do let x ← Mmdvm2020.TypeRepeaterBeacon.read; return some (.typeRepeaterBeacon x)
  else if on = "MSTN".toList then do let x ← Mmdvm2020.TypeMasterNotAccept.read; return some (.typeMasterNotAccept x)
  else if on = "DMRA".toList then do let x ← Mmdvm2020.TypeTalkerAlias.read; return some (.typeTalkerAlias x)
  else return none

/-- okdmr/kaitai/homebrew/mmdvm2020.py:54-94 attributes of `Mmdvm2020`. -/
structure Mmdvm2020 where
  command_prefix : PyStr
  command_data : Option Mmdvm2020.CommandDataUnion
  deriving DecidableEq

/-- okdmr/kaitai/homebrew/mmdvm2020.py:54-94 `Mmdvm2020._read`. -/
def Mmdvm2020.read : Rd Mmdvm2020 := do
  let command_prefix ← decodeWith decodeAscii (readBytes 4)
  let command_data ← Mmdvm2020.readCommandData command_prefix
  return { command_prefix, command_data }

end Dmr.Homebrew
