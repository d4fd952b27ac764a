import Verif.Runtime
/-
Model of okdmr/kaitai/etsi/full_link_control.py (generated by tools/py2lean.py from the Python AST;
definitions marked "hand-written" are not).
-/

namespace Dmr.Etsi

/-- okdmr/kaitai/etsi/full_link_control.py:18-25 `class Flcos(Enum)`. -/
inductive FullLinkControl.Flcos where
  | group_voice
  | unit_to_unit_voice
  | talker_alias_header
  | talker_alias_block1
  | talker_alias_block2
  | talker_alias_block3
  | gps_info
  deriving DecidableEq

/-- okdmr/kaitai/etsi/full_link_control.py:18-25 values of `Flcos`. -/
def FullLinkControl.Flcos.toNat : FullLinkControl.Flcos → Nat
  | .group_voice => 0
  | .unit_to_unit_voice => 3
  | .talker_alias_header => 4
  | .talker_alias_block1 => 5
  | .talker_alias_block2 => 6
  | .talker_alias_block3 => 7
  | .gps_info => 8

/-- okdmr/kaitai/etsi/full_link_control.py:18-25 `Flcos` as a Python enumeration. -/
instance FullLinkControl.Flcos.instPyEnum : PyEnum FullLinkControl.Flcos where
  all := [.group_voice, .unit_to_unit_voice, .talker_alias_header, .talker_alias_block1, .talker_alias_block2, .talker_alias_block3, .gps_info]
  value := FullLinkControl.Flcos.toNat

/-- okdmr/kaitai/etsi/full_link_control.py:27-35 `class PositionErrors(Enum)`. -/
inductive FullLinkControl.PositionErrors where
  | less_than_2m
  | less_than_20m
  | less_than_200m
  | less_than_2km
  | less_than_20km
  | less_than_or_equal_200km
  | more_than_200km
  | position_error_unknown_or_invalid
  deriving DecidableEq

/-- okdmr/kaitai/etsi/full_link_control.py:27-35 values of `PositionErrors`. -/
def FullLinkControl.PositionErrors.toNat : FullLinkControl.PositionErrors → Nat
  | .less_than_2m => 0
  | .less_than_20m => 1
  | .less_than_200m => 2
  | .less_than_2km => 3
  | .less_than_20km => 4
  | .less_than_or_equal_200km => 5
  | .more_than_200km => 6
  | .position_error_unknown_or_invalid => 7

/-- okdmr/kaitai/etsi/full_link_control.py:27-35 `PositionErrors` as a Python enumeration. -/
instance FullLinkControl.PositionErrors.instPyEnum : PyEnum FullLinkControl.PositionErrors where
  all := [.less_than_2m, .less_than_20m, .less_than_200m, .less_than_2km, .less_than_20km, .less_than_or_equal_200km, .more_than_200km, .position_error_unknown_or_invalid]
  value := FullLinkControl.PositionErrors.toNat

/-- okdmr/kaitai/etsi/full_link_control.py:37-41 `class TalkerDataFormats(Enum)`. -/
inductive FullLinkControl.TalkerDataFormats where
  | coding_7bit
  | coding_8bit
  | unicode_utf8
  | unicode_utf16
  deriving DecidableEq

/-- okdmr/kaitai/etsi/full_link_control.py:37-41 values of `TalkerDataFormats`. -/
def FullLinkControl.TalkerDataFormats.toNat : FullLinkControl.TalkerDataFormats → Nat
  | .coding_7bit => 0
  | .coding_8bit => 1
  | .unicode_utf8 => 2
  | .unicode_utf16 => 3

/-- okdmr/kaitai/etsi/full_link_control.py:37-41 `TalkerDataFormats` as a Python enumeration. -/
instance FullLinkControl.TalkerDataFormats.instPyEnum : PyEnum FullLinkControl.TalkerDataFormats where
  all := [.coding_7bit, .coding_8bit, .unicode_utf8, .unicode_utf16]
  value := FullLinkControl.TalkerDataFormats.toNat

/-- okdmr/kaitai/etsi/full_link_control.py:43-51 `class FeatureSetIds(Enum)`. -/
inductive FullLinkControl.FeatureSetIds where
  | standardized_ts_102_361_2
  | reserved1
  | reserved2
  | reserved3
  | mfid_start
  | mfid_end
  | mfid_reserved_start
  | mfid_reserved_end
  deriving DecidableEq

/-- okdmr/kaitai/etsi/full_link_control.py:43-51 values of `FeatureSetIds`. -/
def FullLinkControl.FeatureSetIds.toNat : FullLinkControl.FeatureSetIds → Nat
  | .standardized_ts_102_361_2 => 0
  | .reserved1 => 1
  | .reserved2 => 2
  | .reserved3 => 3
  | .mfid_start => 4
  | .mfid_end => 127
  | .mfid_reserved_start => 128
  | .mfid_reserved_end => 255

/-- okdmr/kaitai/etsi/full_link_control.py:43-51 `FeatureSetIds` as a Python enumeration. -/
instance FullLinkControl.FeatureSetIds.instPyEnum : PyEnum FullLinkControl.FeatureSetIds where
  all := [.standardized_ts_102_361_2, .reserved1, .reserved2, .reserved3, .mfid_start, .mfid_end, .mfid_reserved_start, .mfid_reserved_end]
  value := FullLinkControl.FeatureSetIds.toNat

/-- okdmr/kaitai/etsi/full_link_control.py:111-117 attributes of `FullLinkControl.GpsInfoLcPdu`. -/
structure FullLinkControl.GpsInfoLcPdu where
  reserved : Nat
  position_error : EnumVal FullLinkControl.PositionErrors
  longitude : Nat
  latitude : Nat
  deriving DecidableEq

/-- okdmr/kaitai/etsi/full_link_control.py:111-117 `FullLinkControl.GpsInfoLcPdu._read`. -/
def FullLinkControl.GpsInfoLcPdu.read : Rd FullLinkControl.GpsInfoLcPdu := do
  let reserved ← readBitsIntBe 4
  let position_error ← asEnum FullLinkControl.PositionErrors (readBitsIntBe 3)
  let longitude ← readBitsIntBe 25
  let latitude ← readBitsIntBe 24
  return { reserved, position_error, longitude, latitude }

/-- okdmr/kaitai/etsi/full_link_control.py:126-129 attributes of `FullLinkControl.GroupVoiceChannelUser`. -/
structure FullLinkControl.GroupVoiceChannelUser where
  service_options : Nat
  group_address : Nat
  source_address : Nat
  deriving DecidableEq

/-- okdmr/kaitai/etsi/full_link_control.py:126-129 `FullLinkControl.GroupVoiceChannelUser._read`. -/
def FullLinkControl.GroupVoiceChannelUser.read : Rd FullLinkControl.GroupVoiceChannelUser := do
  let service_options ← readBitsIntBe 8
  let group_address ← readBitsIntBe 24
  let source_address ← readBitsIntBe 24
  return { service_options, group_address, source_address }

/-- okdmr/kaitai/etsi/full_link_control.py:138-141 attributes of `FullLinkControl.UnitToUnitVoiceChannelUser`. -/
structure FullLinkControl.UnitToUnitVoiceChannelUser where
  service_options : Nat
  target_address : Nat
  source_address : Nat
  deriving DecidableEq

/-- okdmr/kaitai/etsi/full_link_control.py:138-141 `FullLinkControl.UnitToUnitVoiceChannelUser._read`. -/
def FullLinkControl.UnitToUnitVoiceChannelUser.read : Rd FullLinkControl.UnitToUnitVoiceChannelUser := do
  let service_options ← readBitsIntBe 8
  let target_address ← readBitsIntBe 24
  let source_address ← readBitsIntBe 24
  return { service_options, target_address, source_address }

/-- okdmr/kaitai/etsi/full_link_control.py:150-155 attributes of `FullLinkControl.TalkerAliasHeader`. -/
structure FullLinkControl.TalkerAliasHeader where
  talker_alias_data_format : EnumVal FullLinkControl.TalkerDataFormats
  talker_alias_data_length : Nat
  talker_alias_data : Nat
  deriving DecidableEq

/-- okdmr/kaitai/etsi/full_link_control.py:150-155 `FullLinkControl.TalkerAliasHeader._read`. -/
def FullLinkControl.TalkerAliasHeader.read : Rd FullLinkControl.TalkerAliasHeader := do
  let talker_alias_data_format ← asEnum FullLinkControl.TalkerDataFormats (readBitsIntBe 2)
  let talker_alias_data_length ← readBitsIntBe 5
  let talker_alias_data ← readBitsIntBe 49
  return { talker_alias_data_format, talker_alias_data_length, talker_alias_data }

/-- okdmr/kaitai/etsi/full_link_control.py:164-165 attributes of `FullLinkControl.TalkerAliasContinuation`. -/
structure FullLinkControl.TalkerAliasContinuation where
  talker_alias_data : Nat
  deriving DecidableEq

/-- okdmr/kaitai/etsi/full_link_control.py:164-165 `FullLinkControl.TalkerAliasContinuation._read`. -/
def FullLinkControl.TalkerAliasContinuation.read : Rd FullLinkControl.TalkerAliasContinuation := do
  let talker_alias_data ← readBitsIntBe 56
  return { talker_alias_data }

/-- okdmr/kaitai/etsi/full_link_control.py:71-97 possible objects in `FullLinkControl.specific_data`. -/
inductive FullLinkControl.SpecificDataUnion where
  | talkerAliasHeader (x : FullLinkControl.TalkerAliasHeader)
  | unitToUnitVoiceChannelUser (x : FullLinkControl.UnitToUnitVoiceChannelUser)
  | groupVoiceChannelUser (x : FullLinkControl.GroupVoiceChannelUser)
  | talkerAliasContinuation (x : FullLinkControl.TalkerAliasContinuation)
  | gpsInfoLcPdu (x : FullLinkControl.GpsInfoLcPdu)
  deriving DecidableEq

/-- okdmr/kaitai/etsi/full_link_control.py:70-97 the `if _on == ...` chain of `FullLinkControl._read`. -/
def FullLinkControl.readSpecificData (on : EnumVal FullLinkControl.Flcos) : Rd (Option FullLinkControl.SpecificDataUnion) :=
  if on = .known .talker_alias_header then do let x ← FullLinkControl.TalkerAliasHeader.read; return some (.talkerAliasHeader x)
  else if on = .known .unit_to_unit_voice then do let x ← FullLinkControl.UnitToUnitVoiceChannelUser.read; return some (.unitToUnitVoiceChannelUser x)
  else if on = .known .group_voice then do let x ← FullLinkControl.GroupVoiceChannelUser.read; return some (.groupVoiceChannelUser x)
  else if on = .known .talker_alias_block3 then do let x ← FullLinkControl.TalkerAliasContinuation.read; return some (.talkerAliasContinuation x)
  else if on = .known .talker_alias_block1 then do let x ← FullLinkControl.TalkerAliasContinuation.read; return some (.talkerAliasContinuation x)
  else if on = .known .talker_alias_block2 then do let x ← FullLinkControl.TalkerAliasContinuation.read; return some (.talkerAliasContinuation x)
  else if on = .known .gps_info then do let x ← FullLinkControl.GpsInfoLcPdu.read; return some (.gpsInfoLcPdu x)
  else return none

/-- okdmr/kaitai/etsi/full_link_control.py:59-102 attributes of `FullLinkControl`. -/
structure FullLinkControl where
  protect_flag : Bool
  reserved : Bool
  full_link_control_opcode : EnumVal FullLinkControl.Flcos
  feature_set_id : EnumVal FullLinkControl.FeatureSetIds
  specific_data : Option FullLinkControl.SpecificDataUnion
  crc_checksum : Option (Bytes)
  cs5_checksum : Option (Nat)
  deriving DecidableEq

/-- okdmr/kaitai/etsi/full_link_control.py:59-102 `FullLinkControl._read`. -/
def FullLinkControl.read : Rd FullLinkControl := do
  let protect_flag ← readFlag
  let reserved ← readFlag
  let full_link_control_opcode ← asEnum FullLinkControl.Flcos (readBitsIntBe 6)
  let feature_set_id ← asEnum FullLinkControl.FeatureSetIds (readBitsIntBe 8)
  alignToByte
  let specific_data ← FullLinkControl.readSpecificData full_link_control_opcode
  let io_size1 ← sizeIo
  let io_pos2 ← posIo
  let crc_checksum ← optionally (decide (((io_size1 : Int) - (io_pos2 : Int)) ≥ 3)) (readBytes 3)
  let io_size3 ← sizeIo
  let cs5_checksum ← optionally (decide (io_size3 ≤ 10)) (readBitsIntBe 5)
  return { protect_flag, reserved, full_link_control_opcode, feature_set_id, specific_data, crc_checksum, cs5_checksum }

end Dmr.Etsi
