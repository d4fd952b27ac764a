import Verif.Runtime
/-
Model of okdmr/kaitai/homebrew/homebrew2015.py (generated by tools/py2lean.py from the Python AST;
definitions marked "hand-written" are not).
-/

namespace Dmr.Homebrew

/-- okdmr/kaitai/homebrew/homebrew2015.py:18-20 `class Timeslots(Enum)`. -/
inductive Homebrew2015.Timeslots where
  | timeslot_1
  | timeslot_2
  deriving DecidableEq

/-- okdmr/kaitai/homebrew/homebrew2015.py:18-20 values of `Timeslots`. -/
def Homebrew2015.Timeslots.toNat : Homebrew2015.Timeslots → Nat
  | .timeslot_1 => 0
  | .timeslot_2 => 1

/-- okdmr/kaitai/homebrew/homebrew2015.py:18-20 `Timeslots` as a Python enumeration. -/
instance Homebrew2015.Timeslots.instPyEnum : PyEnum Homebrew2015.Timeslots where
  all := [.timeslot_1, .timeslot_2]
  value := Homebrew2015.Timeslots.toNat

/-- okdmr/kaitai/homebrew/homebrew2015.py:22-24 `class CallTypes(Enum)`. -/
inductive Homebrew2015.CallTypes where
  | group_call
  | private_call
  deriving DecidableEq

/-- okdmr/kaitai/homebrew/homebrew2015.py:22-24 values of `CallTypes`. -/
def Homebrew2015.CallTypes.toNat : Homebrew2015.CallTypes → Nat
  | .group_call => 0
  | .private_call => 1

/-- okdmr/kaitai/homebrew/homebrew2015.py:22-24 `CallTypes` as a Python enumeration. -/
instance Homebrew2015.CallTypes.instPyEnum : PyEnum Homebrew2015.CallTypes where
  all := [.group_call, .private_call]
  value := Homebrew2015.CallTypes.toNat

/-- okdmr/kaitai/homebrew/homebrew2015.py:26-30 `class FrameTypes(Enum)`. -/
inductive Homebrew2015.FrameTypes where
  | voice_data
  | voice_sync
  | data_or_data_sync
  | unused
  deriving DecidableEq

/-- okdmr/kaitai/homebrew/homebrew2015.py:26-30 values of `FrameTypes`. -/
def Homebrew2015.FrameTypes.toNat : Homebrew2015.FrameTypes → Nat
  | .voice_data => 0
  | .voice_sync => 1
  | .data_or_data_sync => 2
  | .unused => 3

/-- okdmr/kaitai/homebrew/homebrew2015.py:26-30 `FrameTypes` as a Python enumeration. -/
instance Homebrew2015.FrameTypes.instPyEnum : PyEnum Homebrew2015.FrameTypes where
  all := [.voice_data, .voice_sync, .data_or_data_sync, .unused]
  value := Homebrew2015.FrameTypes.toNat

/-- okdmr/kaitai/homebrew/homebrew2015.py:81-90 attributes of `Homebrew2015.TypeMasterPing`. -/
structure Homebrew2015.TypeMasterPing where
  magic : Bytes
  repeater_id : Nat
  deriving DecidableEq

/-- okdmr/kaitai/homebrew/homebrew2015.py:81-90 `Homebrew2015.TypeMasterPing._read`. -/
def Homebrew2015.TypeMasterPing.read : Rd Homebrew2015.TypeMasterPing := do
  let magic ← readBytes 3
  validateEq magic [0x49, 0x4e, 0x47] "/types/type_master_ping/seq/0"
  let repeater_id ← readU4be
  return { magic, repeater_id }

/-- okdmr/kaitai/homebrew/homebrew2015.py:99-108 attributes of `Homebrew2015.TypeRepeaterPong`. -/
structure Homebrew2015.TypeRepeaterPong where
  magic : Bytes
  repeater_id : Nat
  deriving DecidableEq

/-- okdmr/kaitai/homebrew/homebrew2015.py:99-108 `Homebrew2015.TypeRepeaterPong._read`. -/
def Homebrew2015.TypeRepeaterPong.read : Rd Homebrew2015.TypeRepeaterPong := do
  let magic ← readBytes 3
  validateEq magic [0x4f, 0x4e, 0x47] "/types/type_repeater_pong/seq/0"
  let repeater_id ← readU4be
  return { magic, repeater_id }

/-- okdmr/kaitai/homebrew/homebrew2015.py:250-256 attributes of `Homebrew2015.TypeRepeaterClosing`. -/
structure Homebrew2015.TypeRepeaterClosing where
  magic : Bytes
  repeater_id : Nat
  deriving DecidableEq

/-- okdmr/kaitai/homebrew/homebrew2015.py:250-256 `Homebrew2015.TypeRepeaterClosing._read`. -/
def Homebrew2015.TypeRepeaterClosing.read : Rd Homebrew2015.TypeRepeaterClosing := do
  let magic ← readBytes 1
  validateEq magic [0x4c] "/types/type_repeater_closing/seq/0"
  let repeater_id ← readU4be
  return { magic, repeater_id }

/-- okdmr/kaitai/homebrew/homebrew2015.py:265-280 attributes of `Homebrew2015.TypeRepeaterConfiguration`. -/
structure Homebrew2015.TypeRepeaterConfiguration where
  repeater_id : Nat
  call_sign : PyStr
  rx_freq : PyStr
  tx_freq : PyStr
  tx_power : PyStr
  color_code : PyStr
  latitude : PyStr
  longitude : PyStr
  antenna_height_above_ground : PyStr
  location : PyStr
  description : PyStr
  url : PyStr
  software_id : PyStr
  package_id : PyStr
  unparsed_data : PyStr
  deriving DecidableEq

/-- okdmr/kaitai/homebrew/homebrew2015.py:265-280 `Homebrew2015.TypeRepeaterConfiguration._read`. -/
def Homebrew2015.TypeRepeaterConfiguration.read : Rd Homebrew2015.TypeRepeaterConfiguration := do
  let repeater_id ← readU4be
  let call_sign ← decodeWith decodeAscii (readBytes 8)
  let rx_freq ← decodeWith decodeAscii (readBytes 9)
  let tx_freq ← decodeWith decodeAscii (readBytes 9)
  let tx_power ← decodeWith decodeAscii (readBytes 2)
  let color_code ← decodeWith decodeAscii (readBytes 2)
  let latitude ← decodeWith decodeAscii (readBytes 8)
  let longitude ← decodeWith decodeAscii (readBytes 9)
  let antenna_height_above_ground ← decodeWith decodeAscii (readBytes 3)
  let location ← decodeWith decodeAscii (readBytes 20)
  let description ← decodeWith decodeAscii (readBytes 20)
  let url ← decodeWith decodeAscii (readBytes 124)
  let software_id ← decodeWith decodeAscii (readBytes 40)
  let package_id ← decodeWith decodeAscii (readBytes 40)
  let unparsed_data ← decodeWith decodeAscii (readBytesFull)
  return { repeater_id, call_sign, rx_freq, tx_freq, tx_power, color_code, latitude, longitude, antenna_height_above_ground, location, description, url, software_id, package_id, unparsed_data }

/-- okdmr/kaitai/homebrew/homebrew2015.py:117-124 possible objects in `TypeRepeaterConfigurationOrClosing.data`. -/
inductive Homebrew2015.TypeRepeaterConfigurationOrClosing.DataUnion where
  | typeRepeaterClosing (x : Homebrew2015.TypeRepeaterClosing)
  | typeRepeaterConfiguration (x : Homebrew2015.TypeRepeaterConfiguration)
  deriving DecidableEq

/-- okdmr/kaitai/homebrew/homebrew2015.py:117-124 attributes of `TypeRepeaterConfigurationOrClosing` (hand-written). -/
structure Homebrew2015.TypeRepeaterConfigurationOrClosing where
  data : Homebrew2015.TypeRepeaterConfigurationOrClosing.DataUnion
  deriving DecidableEq

/-- okdmr/kaitai/homebrew/homebrew2015.py:282-291 property `fifth_letter` of the root object on its first access
(hand-written; the cache `_m_fifth_letter` on the root object is not recorded). -/
def Homebrew2015.computeFifthLetter : Rd PyStr := do
  let pos ← posIo
  seekIo 4
  let v ← decodeWith decodeAscii (readBytes 1)
  seekIo pos
  return v

/-- okdmr/kaitai/homebrew/homebrew2015.py:117-124 the `if _on == ...` chain of `Homebrew2015.TypeRepeaterConfigurationOrClosing._read` (hand-written). -/
def Homebrew2015.TypeRepeaterConfigurationOrClosing.readData (on : PyStr) : Rd (Homebrew2015.TypeRepeaterConfigurationOrClosing.DataUnion) :=
  if on = "L".toList then do let x ← Homebrew2015.TypeRepeaterClosing.read; return .typeRepeaterClosing x
  else do let x ← Homebrew2015.TypeRepeaterConfiguration.read; return .typeRepeaterConfiguration x

/-- okdmr/kaitai/homebrew/homebrew2015.py:117-124 `TypeRepeaterConfigurationOrClosing._read` (hand-written). -/
def Homebrew2015.TypeRepeaterConfigurationOrClosing.read : Rd Homebrew2015.TypeRepeaterConfigurationOrClosing := do
  let on ← Homebrew2015.computeFifthLetter
  let data ← Homebrew2015.TypeRepeaterConfigurationOrClosing.readData on
  return { data }

/-- okdmr/kaitai/homebrew/homebrew2015.py:133-135 attributes of `Homebrew2015.TypeRepeaterLoginResponse`. -/
structure Homebrew2015.TypeRepeaterLoginResponse where
  repeater_id : Nat
  sha256 : Bytes
  deriving DecidableEq

/-- okdmr/kaitai/homebrew/homebrew2015.py:133-135 `Homebrew2015.TypeRepeaterLoginResponse._read`. -/
def Homebrew2015.TypeRepeaterLoginResponse.read : Rd Homebrew2015.TypeRepeaterLoginResponse := do
  let repeater_id ← readU4be
  let sha256 ← readBytes 32
  return { repeater_id, sha256 }

/-- okdmr/kaitai/homebrew/homebrew2015.py:144-145 attributes of `Homebrew2015.TypeRepeaterLoginRequest`. -/
structure Homebrew2015.TypeRepeaterLoginRequest where
  repeater_id : Nat
  deriving DecidableEq

/-- okdmr/kaitai/homebrew/homebrew2015.py:144-145 `Homebrew2015.TypeRepeaterLoginRequest._read`. -/
def Homebrew2015.TypeRepeaterLoginRequest.read : Rd Homebrew2015.TypeRepeaterLoginRequest := do
  let repeater_id ← readU4be
  return { repeater_id }

/-- okdmr/kaitai/homebrew/homebrew2015.py:154-163 attributes of `Homebrew2015.TypeMasterNotAccept`. -/
structure Homebrew2015.TypeMasterNotAccept where
  magic : Bytes
  repeater_id : Nat
  deriving DecidableEq

/-- okdmr/kaitai/homebrew/homebrew2015.py:154-163 `Homebrew2015.TypeMasterNotAccept._read`. -/
def Homebrew2015.TypeMasterNotAccept.read : Rd Homebrew2015.TypeMasterNotAccept := do
  let magic ← readBytes 2
  validateEq magic [0x41, 0x4b] "/types/type_master_not_accept/seq/0"
  let repeater_id ← readU4be
  return { magic, repeater_id }

/-- okdmr/kaitai/homebrew/homebrew2015.py:172-183 attributes of `Homebrew2015.TypeMasterRepeaterAck`. -/
structure Homebrew2015.TypeMasterRepeaterAck where
  magictype_master_repeater_ack : Bytes
  repeater_id : Nat
  random_number : Option (Nat)
  deriving DecidableEq

/-- okdmr/kaitai/homebrew/homebrew2015.py:172-183 `Homebrew2015.TypeMasterRepeaterAck._read`. -/
def Homebrew2015.TypeMasterRepeaterAck.read : Rd Homebrew2015.TypeMasterRepeaterAck := do
  let magictype_master_repeater_ack ← readBytes 2
  validateEq magictype_master_repeater_ack [0x43, 0x4b] "/types/type_master_repeater_ack/seq/0"
  let repeater_id ← readU4be
  let eof1 ← isEof
  let random_number ← optionally (!(eof1)) (readU4be)
  return { magictype_master_repeater_ack, repeater_id, random_number }

/-- okdmr/kaitai/homebrew/homebrew2015.py:192-198 attributes of `Homebrew2015.TypeMasterClosing`. -/
structure Homebrew2015.TypeMasterClosing where
  magic : Bytes
  repeater_id : Nat
  deriving DecidableEq

/-- okdmr/kaitai/homebrew/homebrew2015.py:192-198 `Homebrew2015.TypeMasterClosing._read`. -/
def Homebrew2015.TypeMasterClosing.read : Rd Homebrew2015.TypeMasterClosing := do
  let magic ← readBytes 1
  validateEq magic [0x4c] "/types/type_master_closing/seq/0"
  let repeater_id ← readU4be
  return { magic, repeater_id }

/-- okdmr/kaitai/homebrew/homebrew2015.py:207-230 attributes of `Homebrew2015.TypeDmrData`. -/
structure Homebrew2015.TypeDmrData where
  sequence_no : Nat
  source_id : Nat
  target_id : Nat
  repeater_id : Nat
  slot_no : EnumVal Homebrew2015.Timeslots
  call_type : EnumVal Homebrew2015.CallTypes
  frame_type : EnumVal Homebrew2015.FrameTypes
  data_type : Nat
  stream_id : Nat
  dmr_data : Bytes
  bit_error_rate : Option (Nat)
  rssi : Option (Nat)
  deriving DecidableEq

/-- okdmr/kaitai/homebrew/homebrew2015.py:207-230 `Homebrew2015.TypeDmrData._read`. -/
def Homebrew2015.TypeDmrData.read : Rd Homebrew2015.TypeDmrData := do
  let sequence_no ← readU1
  let source_id ← readBitsIntBe 24
  let target_id ← readBitsIntBe 24
  alignToByte
  let repeater_id ← readU4be
  let slot_no ← asEnum Homebrew2015.Timeslots (readBitsIntBe 1)
  let call_type ← asEnum Homebrew2015.CallTypes (readBitsIntBe 1)
  let frame_type ← asEnum Homebrew2015.FrameTypes (readBitsIntBe 2)
  let data_type ← readBitsIntBe 4
  alignToByte
  let stream_id ← readU4be
  let dmr_data ← readBytes 33
  let eof1 ← isEof
  let bit_error_rate ← optionally (!(eof1)) (readU1)
  let eof2 ← isEof
  let rssi ← optionally (!(eof2)) (readU1)
  return { sequence_no, source_id, target_id, repeater_id, slot_no, call_type, frame_type, data_type, stream_id, dmr_data, bit_error_rate, rssi }

/-- okdmr/kaitai/homebrew/homebrew2015.py:239-241 attributes of `Homebrew2015.TypeRepeaterOptions`. -/
structure Homebrew2015.TypeRepeaterOptions where
  repeater_id : Nat
  options : PyStr
  deriving DecidableEq

/-- okdmr/kaitai/homebrew/homebrew2015.py:239-241 `Homebrew2015.TypeRepeaterOptions._read`. -/
def Homebrew2015.TypeRepeaterOptions.read : Rd Homebrew2015.TypeRepeaterOptions := do
  let repeater_id ← readU4be
  let options ← decodeWith decodeAscii (readBytesFull)
  return { repeater_id, options }

/-- okdmr/kaitai/homebrew/homebrew2015.py:42-72 possible objects in `Homebrew2015.command_data`. -/
inductive Homebrew2015.CommandDataUnion where
  | typeRepeaterLoginRequest (x : Homebrew2015.TypeRepeaterLoginRequest)
  | typeMasterRepeaterAck (x : Homebrew2015.TypeMasterRepeaterAck)
  | typeRepeaterLoginResponse (x : Homebrew2015.TypeRepeaterLoginResponse)
  | typeRepeaterConfigurationOrClosing (x : Homebrew2015.TypeRepeaterConfigurationOrClosing)
  | typeDmrData (x : Homebrew2015.TypeDmrData)
  | typeMasterClosing (x : Homebrew2015.TypeMasterClosing)
  | typeRepeaterPong (x : Homebrew2015.TypeRepeaterPong)
  | typeMasterPing (x : Homebrew2015.TypeMasterPing)
  | typeMasterNotAccept (x : Homebrew2015.TypeMasterNotAccept)
  deriving DecidableEq

/-- okdmr/kaitai/homebrew/homebrew2015.py:41-72 the `if _on == ...` chain of `Homebrew2015._read`. -/
def Homebrew2015.readCommandData (on : PyStr) : Rd (Option Homebrew2015.CommandDataUnion) :=
  if on = "RPTL".toList then do let x ← Homebrew2015.TypeRepeaterLoginRequest.read; return some (.typeRepeaterLoginRequest x)
  else if on = "MSTA".toList then do let x ← Homebrew2015.TypeMasterRepeaterAck.read; return some (.typeMasterRepeaterAck x)
  else if on = "RPTK".toList then do let x ← Homebrew2015.TypeRepeaterLoginResponse.read; return some (.typeRepeaterLoginResponse x)
  else if on = "RPTC".toList then do let x ← Homebrew2015.TypeRepeaterConfigurationOrClosing.read; return some (.typeRepeaterConfigurationOrClosing x)
  else if on = "DMRD".toList then do let x ← Homebrew2015.TypeDmrData.read; return some (.typeDmrData x)
  else if on = "MSTC".toList then do let x ← Homebrew2015.TypeMasterClosing.read; return some (.typeMasterClosing x)
  else if on = "RPTP".toList then do let x ← Homebrew2015.TypeRepeaterPong.read; return some (.typeRepeaterPong x)
  else if on = "MSTP".toList then do let x ← Homebrew2015.TypeMasterPing.read; return some (.typeMasterPing x)
  else if on = "MSTN".toList then do let x ← Homebrew2015.TypeMasterNotAccept.read; return some (.typeMasterNotAccept x)
  else return none

/-- okdmr/kaitai/homebrew/homebrew2015.py:38-72 attributes of `Homebrew2015`. -/
structure Homebrew2015 where
  command_prefix : PyStr
  command_data : Option Homebrew2015.CommandDataUnion
  deriving DecidableEq

/-- okdmr/kaitai/homebrew/homebrew2015.py:38-72 `Homebrew2015._read`. -/
def Homebrew2015.read : Rd Homebrew2015 := do
  let command_prefix ← decodeWith decodeUtf8 (readBytes 4)
  let command_data ← Homebrew2015.readCommandData command_prefix
  return { command_prefix, command_data }

end Dmr.Homebrew
