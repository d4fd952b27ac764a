import Verif.Runtime
/-
Model of okdmr/kaitai/etsi/dmr_data_header.py (generated by tools/py2lean.py from the Python AST;
definitions marked "hand-written" are not).
-/

namespace Dmr.Etsi

/-- okdmr/kaitai/etsi/dmr_data_header.py:18-29 `class UdtFormats(Enum)`. -/
inductive DmrDataHeader.UdtFormats where
  | binary
  | ms_or_tg_address
  | bcd_4bit
  | iso_7bit_coded_characters
  | iso_8bit_coded_characters
  | nmea_location_coded
  | ip_address
  | unicode_16bit_characters
  | manufacturer_specific
  | manufacturer_specific_2
  | mixed_address_and_16bit_utf16be_characters
  deriving DecidableEq

/-- okdmr/kaitai/etsi/dmr_data_header.py:18-29 values of `UdtFormats`. -/
def DmrDataHeader.UdtFormats.toNat : DmrDataHeader.UdtFormats → Nat
  | .binary => 0
  | .ms_or_tg_address => 1
  | .bcd_4bit => 2
  | .iso_7bit_coded_characters => 3
  | .iso_8bit_coded_characters => 4
  | .nmea_location_coded => 5
  | .ip_address => 6
  | .unicode_16bit_characters => 7
  | .manufacturer_specific => 8
  | .manufacturer_specific_2 => 9
  | .mixed_address_and_16bit_utf16be_characters => 10

/-- okdmr/kaitai/etsi/dmr_data_header.py:18-29 `UdtFormats` as a Python enumeration. -/
instance DmrDataHeader.UdtFormats.instPyEnum : PyEnum DmrDataHeader.UdtFormats where
  all := [.binary, .ms_or_tg_address, .bcd_4bit, .iso_7bit_coded_characters, .iso_8bit_coded_characters, .nmea_location_coded, .ip_address, .unicode_16bit_characters, .manufacturer_specific, .manufacturer_specific_2, .mixed_address_and_16bit_utf16be_characters]
  value := DmrDataHeader.UdtFormats.toNat

/-- okdmr/kaitai/etsi/dmr_data_header.py:31-57 `class CsbkMbcUdtOpcodes(Enum)`. -/
inductive DmrDataHeader.CsbkMbcUdtOpcodes where
  | c_aloha
  | c_udthd
  | c_udthu
  | c_or_p_ahoy
  | c_ackvit
  | c_rand
  | c_ackd
  | c_acku
  | p_ackd
  | p_acku
  | c_dgnahd
  | c_dgnahu
  | c_bcast
  | p_maint
  | p_clear
  | p_protect
  | pv_grant
  | tv_grant
  | btv_grant
  | pd_grant
  | td_grant
  | pv_grant_dx
  | pd_grant_dx
  | pd_grant_mi
  | td_grant_mi
  | c_move
  deriving DecidableEq

/-- okdmr/kaitai/etsi/dmr_data_header.py:31-57 values of `CsbkMbcUdtOpcodes`. -/
def DmrDataHeader.CsbkMbcUdtOpcodes.toNat : DmrDataHeader.CsbkMbcUdtOpcodes → Nat
  | .c_aloha => 25
  | .c_udthd => 26
  | .c_udthu => 27
  | .c_or_p_ahoy => 28
  | .c_ackvit => 30
  | .c_rand => 31
  | .c_ackd => 32
  | .c_acku => 33
  | .p_ackd => 34
  | .p_acku => 35
  | .c_dgnahd => 36
  | .c_dgnahu => 37
  | .c_bcast => 40
  | .p_maint => 42
  | .p_clear => 46
  | .p_protect => 47
  | .pv_grant => 48
  | .tv_grant => 49
  | .btv_grant => 50
  | .pd_grant => 51
  | .td_grant => 52
  | .pv_grant_dx => 53
  | .pd_grant_dx => 54
  | .pd_grant_mi => 55
  | .td_grant_mi => 56
  | .c_move => 57

/-- okdmr/kaitai/etsi/dmr_data_header.py:31-57 `CsbkMbcUdtOpcodes` as a Python enumeration. -/
instance DmrDataHeader.CsbkMbcUdtOpcodes.instPyEnum : PyEnum DmrDataHeader.CsbkMbcUdtOpcodes where
  all := [.c_aloha, .c_udthd, .c_udthu, .c_or_p_ahoy, .c_ackvit, .c_rand, .c_ackd, .c_acku, .p_ackd, .p_acku, .c_dgnahd, .c_dgnahu, .c_bcast, .p_maint, .p_clear, .p_protect, .pv_grant, .tv_grant, .btv_grant, .pd_grant, .td_grant, .pv_grant_dx, .pd_grant_dx, .pd_grant_mi, .td_grant_mi, .c_move]
  value := DmrDataHeader.CsbkMbcUdtOpcodes.toNat

/-- okdmr/kaitai/etsi/dmr_data_header.py:59-66 `class DataPacketFormats(Enum)`. -/
inductive DmrDataHeader.DataPacketFormats where
  | unified_data_transport
  | response_packet
  | data_packet_unconfirmed
  | data_packet_confirmed
  | short_data_defined
  | short_data_raw_or_status_or_precoded
  | proprietary
  deriving DecidableEq

/-- okdmr/kaitai/etsi/dmr_data_header.py:59-66 values of `DataPacketFormats`. -/
def DmrDataHeader.DataPacketFormats.toNat : DmrDataHeader.DataPacketFormats → Nat
  | .unified_data_transport => 0
  | .response_packet => 1
  | .data_packet_unconfirmed => 2
  | .data_packet_confirmed => 3
  | .short_data_defined => 13
  | .short_data_raw_or_status_or_precoded => 14
  | .proprietary => 15

/-- okdmr/kaitai/etsi/dmr_data_header.py:59-66 `DataPacketFormats` as a Python enumeration. -/
instance DmrDataHeader.DataPacketFormats.instPyEnum : PyEnum DmrDataHeader.DataPacketFormats where
  all := [.unified_data_transport, .response_packet, .data_packet_unconfirmed, .data_packet_confirmed, .short_data_defined, .short_data_raw_or_status_or_precoded, .proprietary]
  value := DmrDataHeader.DataPacketFormats.toNat

/-- okdmr/kaitai/etsi/dmr_data_header.py:68-75 `class SapIdentifiers(Enum)`. -/
inductive DmrDataHeader.SapIdentifiers where
  | unified_data_transport
  | tcp_ip_header_compression
  | udp_ip_header_compression
  | ip_based_packet_data
  | arp_address_resolution_protocol
  | proprietary_packet_data
  | short_data
  deriving DecidableEq

/-- okdmr/kaitai/etsi/dmr_data_header.py:68-75 values of `SapIdentifiers`. -/
def DmrDataHeader.SapIdentifiers.toNat : DmrDataHeader.SapIdentifiers → Nat
  | .unified_data_transport => 0
  | .tcp_ip_header_compression => 2
  | .udp_ip_header_compression => 3
  | .ip_based_packet_data => 4
  | .arp_address_resolution_protocol => 5
  | .proprietary_packet_data => 9
  | .short_data => 10

/-- okdmr/kaitai/etsi/dmr_data_header.py:68-75 `SapIdentifiers` as a Python enumeration. -/
instance DmrDataHeader.SapIdentifiers.instPyEnum : PyEnum DmrDataHeader.SapIdentifiers where
  all := [.unified_data_transport, .tcp_ip_header_compression, .udp_ip_header_compression, .ip_based_packet_data, .arp_address_resolution_protocol, .proprietary_packet_data, .short_data]
  value := DmrDataHeader.SapIdentifiers.toNat

/-- okdmr/kaitai/etsi/dmr_data_header.py:77-102 `class DefinedDataFormats(Enum)`. -/
inductive DmrDataHeader.DefinedDataFormats where
  | binary
  | bcd
  | coding_7bit
  | coding_8bit_8859_1
  | coding_8bit_8859_2
  | coding_8bit_8859_3
  | coding_8bit_8859_4
  | coding_8bit_8859_5
  | coding_8bit_8859_6
  | coding_8bit_8859_7
  | coding_8bit_8859_8
  | coding_8bit_8859_9
  | coding_8bit_8859_10
  | coding_8bit_8859_11
  | coding_8bit_8859_13
  | coding_8bit_8859_14
  | coding_8bit_8859_15
  | coding_8bit_8859_16
  | unicode_utf8
  | unicode_utf16
  | unicode_utf16be
  | unicode_utf16le
  | unicode_utf32
  | unicode_utf32be
  | unicode_utf32le
  deriving DecidableEq

/-- okdmr/kaitai/etsi/dmr_data_header.py:77-102 values of `DefinedDataFormats`. -/
def DmrDataHeader.DefinedDataFormats.toNat : DmrDataHeader.DefinedDataFormats → Nat
  | .binary => 0
  | .bcd => 1
  | .coding_7bit => 2
  | .coding_8bit_8859_1 => 3
  | .coding_8bit_8859_2 => 4
  | .coding_8bit_8859_3 => 5
  | .coding_8bit_8859_4 => 6
  | .coding_8bit_8859_5 => 7
  | .coding_8bit_8859_6 => 8
  | .coding_8bit_8859_7 => 9
  | .coding_8bit_8859_8 => 10
  | .coding_8bit_8859_9 => 11
  | .coding_8bit_8859_10 => 12
  | .coding_8bit_8859_11 => 13
  | .coding_8bit_8859_13 => 14
  | .coding_8bit_8859_14 => 15
  | .coding_8bit_8859_15 => 16
  | .coding_8bit_8859_16 => 17
  | .unicode_utf8 => 18
  | .unicode_utf16 => 19
  | .unicode_utf16be => 20
  | .unicode_utf16le => 21
  | .unicode_utf32 => 22
  | .unicode_utf32be => 23
  | .unicode_utf32le => 24

/-- okdmr/kaitai/etsi/dmr_data_header.py:77-102 `DefinedDataFormats` as a Python enumeration. -/
instance DmrDataHeader.DefinedDataFormats.instPyEnum : PyEnum DmrDataHeader.DefinedDataFormats where
  all := [.binary, .bcd, .coding_7bit, .coding_8bit_8859_1, .coding_8bit_8859_2, .coding_8bit_8859_3, .coding_8bit_8859_4, .coding_8bit_8859_5, .coding_8bit_8859_6, .coding_8bit_8859_7, .coding_8bit_8859_8, .coding_8bit_8859_9, .coding_8bit_8859_10, .coding_8bit_8859_11, .coding_8bit_8859_13, .coding_8bit_8859_14, .coding_8bit_8859_15, .coding_8bit_8859_16, .unicode_utf8, .unicode_utf16, .unicode_utf16be, .unicode_utf16le, .unicode_utf32, .unicode_utf32be, .unicode_utf32le]
  value := DmrDataHeader.DefinedDataFormats.toNat

/-- okdmr/kaitai/etsi/dmr_data_header.py:104-107 `class ResponsePacketClasses(Enum)`. -/
inductive DmrDataHeader.ResponsePacketClasses where
  | ack
  | nack
  | sack
  deriving DecidableEq

/-- okdmr/kaitai/etsi/dmr_data_header.py:104-107 values of `ResponsePacketClasses`. -/
def DmrDataHeader.ResponsePacketClasses.toNat : DmrDataHeader.ResponsePacketClasses → Nat
  | .ack => 0
  | .nack => 1
  | .sack => 2

/-- okdmr/kaitai/etsi/dmr_data_header.py:104-107 `ResponsePacketClasses` as a Python enumeration. -/
instance DmrDataHeader.ResponsePacketClasses.instPyEnum : PyEnum DmrDataHeader.ResponsePacketClasses where
  all := [.ack, .nack, .sack]
  value := DmrDataHeader.ResponsePacketClasses.toNat

/-- okdmr/kaitai/etsi/dmr_data_header.py:130-149 attributes of `DmrDataHeader.DataHeaderShortRaw`. -/
structure DmrDataHeader.DataHeaderShortRaw where
  llid_destination_is_group : Bool
  response_requested : Bool
  appended_blocks_msb : Nat
  format : EnumVal DmrDataHeader.DataPacketFormats
  sap_identifier : EnumVal DmrDataHeader.SapIdentifiers
  appended_blocks_lsb : Nat
  llid_destination : Nat
  llid_source : Nat
  source_port : Nat
  destination_port : Nat
  selective_automatic_repeat_request : Bool
  full_message_flag : Bool
  bit_padding : Nat
  crc : Bytes
  deriving DecidableEq

/-- okdmr/kaitai/etsi/dmr_data_header.py:130-149 `DmrDataHeader.DataHeaderShortRaw._read`. -/
def DmrDataHeader.DataHeaderShortRaw.read : Rd DmrDataHeader.DataHeaderShortRaw := do
  let llid_destination_is_group ← readFlag
  let response_requested ← readFlag
  let appended_blocks_msb ← readBitsIntBe 2
  let format ← asEnum DmrDataHeader.DataPacketFormats (readBitsIntBe 4)
  let sap_identifier ← asEnum DmrDataHeader.SapIdentifiers (readBitsIntBe 4)
  let appended_blocks_lsb ← readBitsIntBe 4
  let llid_destination ← readBitsIntBe 24
  let llid_source ← readBitsIntBe 24
  let source_port ← readBitsIntBe 3
  let destination_port ← readBitsIntBe 3
  let selective_automatic_repeat_request ← readFlag
  let full_message_flag ← readFlag
  let bit_padding ← readBitsIntBe 8
  alignToByte
  let crc ← readBytes 2
  return { llid_destination_is_group, response_requested, appended_blocks_msb, format, sap_identifier, appended_blocks_lsb, llid_destination, llid_source, source_port, destination_port, selective_automatic_repeat_request, full_message_flag, bit_padding, crc }

/-- okdmr/kaitai/etsi/dmr_data_header.py:170-180 attributes of `DmrDataHeader.DataHeaderProprietary`. -/
structure DmrDataHeader.DataHeaderProprietary where
  sap_identifier : EnumVal DmrDataHeader.SapIdentifiers
  format : EnumVal DmrDataHeader.DataPacketFormats
  mfid : Nat
  proprietary_data : Bytes
  crc : Bytes
  deriving DecidableEq

/-- okdmr/kaitai/etsi/dmr_data_header.py:170-180 `DmrDataHeader.DataHeaderProprietary._read`. -/
def DmrDataHeader.DataHeaderProprietary.read : Rd DmrDataHeader.DataHeaderProprietary := do
  let sap_identifier ← asEnum DmrDataHeader.SapIdentifiers (readBitsIntBe 4)
  let format ← asEnum DmrDataHeader.DataPacketFormats (readBitsIntBe 4)
  let mfid ← readBitsIntBe 8
  alignToByte
  let proprietary_data ← readBytes 8
  let crc ← readBytes 2
  return { sap_identifier, format, mfid, proprietary_data, crc }

/-- okdmr/kaitai/etsi/dmr_data_header.py:189-190 attributes of `DmrDataHeader.DataHeaderUndefined`. -/
structure DmrDataHeader.DataHeaderUndefined where
  bytedata : Bytes
  deriving DecidableEq

/-- okdmr/kaitai/etsi/dmr_data_header.py:189-190 `DmrDataHeader.DataHeaderUndefined._read`. -/
def DmrDataHeader.DataHeaderUndefined.read : Rd DmrDataHeader.DataHeaderUndefined := do
  let bytedata ← readBytesFull
  return { bytedata }

/-- okdmr/kaitai/etsi/dmr_data_header.py:201-218 attributes of `DmrDataHeader.DataHeaderShortStatusPrecoded`. -/
structure DmrDataHeader.DataHeaderShortStatusPrecoded where
  llid_destination_is_group : Bool
  response_requested : Bool
  appended_blocks_msb : Nat
  format : EnumVal DmrDataHeader.DataPacketFormats
  sap_identifier : EnumVal DmrDataHeader.SapIdentifiers
  appended_blocks_lsb : Nat
  llid_destination : Nat
  llid_source : Nat
  source_port : Nat
  destination_port : Nat
  status_precoded : Nat
  crc : Bytes
  deriving DecidableEq

/-- okdmr/kaitai/etsi/dmr_data_header.py:201-218 `DmrDataHeader.DataHeaderShortStatusPrecoded._read`. -/
def DmrDataHeader.DataHeaderShortStatusPrecoded.read : Rd DmrDataHeader.DataHeaderShortStatusPrecoded := do
  let llid_destination_is_group ← readFlag
  let response_requested ← readFlag
  let appended_blocks_msb ← readBitsIntBe 2
  let format ← asEnum DmrDataHeader.DataPacketFormats (readBitsIntBe 4)
  let sap_identifier ← asEnum DmrDataHeader.SapIdentifiers (readBitsIntBe 4)
  let appended_blocks_lsb ← readBitsIntBe 4
  let llid_destination ← readBitsIntBe 24
  let llid_source ← readBitsIntBe 24
  let source_port ← readBitsIntBe 3
  let destination_port ← readBitsIntBe 3
  let status_precoded ← readBitsIntBe 10
  alignToByte
  let crc ← readBytes 2
  return { llid_destination_is_group, response_requested, appended_blocks_msb, format, sap_identifier, appended_blocks_lsb, llid_destination, llid_source, source_port, destination_port, status_precoded, crc }

/-- okdmr/kaitai/etsi/dmr_data_header.py:239-260 attributes of `DmrDataHeader.DataHeaderResponse`. -/
structure DmrDataHeader.DataHeaderResponse where
  reserved1 : Bool
  response_requested : Bool
  reserved2 : Nat
  format : EnumVal DmrDataHeader.DataPacketFormats
  sap_identifier : EnumVal DmrDataHeader.SapIdentifiers
  reserved3 : Nat
  llid_destination : Nat
  llid_source : Nat
  full_message_flag : Bool
  blocks_to_follow : Nat
  response_class : EnumVal DmrDataHeader.ResponsePacketClasses
  response_type : Nat
  response_status : Nat
  crc : Bytes
  deriving DecidableEq

/-- okdmr/kaitai/etsi/dmr_data_header.py:239-260 `DmrDataHeader.DataHeaderResponse._read`. -/
def DmrDataHeader.DataHeaderResponse.read : Rd DmrDataHeader.DataHeaderResponse := do
  let reserved1 ← readFlag
  let response_requested ← readFlag
  let reserved2 ← readBitsIntBe 2
  let format ← asEnum DmrDataHeader.DataPacketFormats (readBitsIntBe 4)
  let sap_identifier ← asEnum DmrDataHeader.SapIdentifiers (readBitsIntBe 4)
  let reserved3 ← readBitsIntBe 4
  let llid_destination ← readBitsIntBe 24
  let llid_source ← readBitsIntBe 24
  let full_message_flag ← readFlag
  let blocks_to_follow ← readBitsIntBe 7
  let response_class ← asEnum DmrDataHeader.ResponsePacketClasses (readBitsIntBe 2)
  let response_type ← readBitsIntBe 3
  let response_status ← readBitsIntBe 3
  alignToByte
  let crc ← readBytes 2
  return { reserved1, response_requested, reserved2, format, sap_identifier, reserved3, llid_destination, llid_source, full_message_flag, blocks_to_follow, response_class, response_type, response_status, crc }

/-- okdmr/kaitai/etsi/dmr_data_header.py:271-291 attributes of `DmrDataHeader.DataHeaderConfirmed`. -/
structure DmrDataHeader.DataHeaderConfirmed where
  llid_destination_is_group : Bool
  response_requested : Bool
  reserved1 : Bool
  pad_octet_count_msb : Bool
  format : EnumVal DmrDataHeader.DataPacketFormats
  sap_identifier : EnumVal DmrDataHeader.SapIdentifiers
  pad_octet_count : Nat
  llid_destination : Nat
  llid_source : Nat
  full_message_flag : Bool
  blocks_to_follow : Nat
  resynchronize_flag : Bool
  send_sequence_number : Nat
  fragment_sequence_number : Nat
  crc : Bytes
  deriving DecidableEq

/-- okdmr/kaitai/etsi/dmr_data_header.py:271-291 `DmrDataHeader.DataHeaderConfirmed._read`. -/
def DmrDataHeader.DataHeaderConfirmed.read : Rd DmrDataHeader.DataHeaderConfirmed := do
  let llid_destination_is_group ← readFlag
  let response_requested ← readFlag
  let reserved1 ← readFlag
  let pad_octet_count_msb ← readFlag
  let format ← asEnum DmrDataHeader.DataPacketFormats (readBitsIntBe 4)
  let sap_identifier ← asEnum DmrDataHeader.SapIdentifiers (readBitsIntBe 4)
  let pad_octet_count ← readBitsIntBe 4
  let llid_destination ← readBitsIntBe 24
  let llid_source ← readBitsIntBe 24
  let full_message_flag ← readFlag
  let blocks_to_follow ← readBitsIntBe 7
  let resynchronize_flag ← readFlag
  let send_sequence_number ← readBitsIntBe 3
  let fragment_sequence_number ← readBitsIntBe 4
  alignToByte
  let crc ← readBytes 2
  return { llid_destination_is_group, response_requested, reserved1, pad_octet_count_msb, format, sap_identifier, pad_octet_count, llid_destination, llid_source, full_message_flag, blocks_to_follow, resynchronize_flag, send_sequence_number, fragment_sequence_number, crc }

/-- okdmr/kaitai/etsi/dmr_data_header.py:302-321 attributes of `DmrDataHeader.DataHeaderUnconfirmed`. -/
structure DmrDataHeader.DataHeaderUnconfirmed where
  llid_destination_is_group : Bool
  response_requested : Bool
  reserved1 : Bool
  pad_octet_count_msb : Bool
  format : EnumVal DmrDataHeader.DataPacketFormats
  sap_identifier : EnumVal DmrDataHeader.SapIdentifiers
  pad_octet_count : Nat
  llid_destination : Nat
  llid_source : Nat
  full_message_flag : Bool
  blocks_to_follow : Nat
  reserved2 : Nat
  fragment_sequence_number : Nat
  crc : Bytes
  deriving DecidableEq

/-- okdmr/kaitai/etsi/dmr_data_header.py:302-321 `DmrDataHeader.DataHeaderUnconfirmed._read`. -/
def DmrDataHeader.DataHeaderUnconfirmed.read : Rd DmrDataHeader.DataHeaderUnconfirmed := do
  let llid_destination_is_group ← readFlag
  let response_requested ← readFlag
  let reserved1 ← readFlag
  let pad_octet_count_msb ← readFlag
  let format ← asEnum DmrDataHeader.DataPacketFormats (readBitsIntBe 4)
  let sap_identifier ← asEnum DmrDataHeader.SapIdentifiers (readBitsIntBe 4)
  let pad_octet_count ← readBitsIntBe 4
  let llid_destination ← readBitsIntBe 24
  let llid_source ← readBitsIntBe 24
  let full_message_flag ← readFlag
  let blocks_to_follow ← readBitsIntBe 7
  let reserved2 ← readBitsIntBe 4
  let fragment_sequence_number ← readBitsIntBe 4
  alignToByte
  let crc ← readBytes 2
  return { llid_destination_is_group, response_requested, reserved1, pad_octet_count_msb, format, sap_identifier, pad_octet_count, llid_destination, llid_source, full_message_flag, blocks_to_follow, reserved2, fragment_sequence_number, crc }

/-- okdmr/kaitai/etsi/dmr_data_header.py:332-352 attributes of `DmrDataHeader.DataHeaderShortDefined`. -/
structure DmrDataHeader.DataHeaderShortDefined where
  llid_destination_is_group : Bool
  response_requested : Bool
  appended_blocks_msb : Nat
  format : EnumVal DmrDataHeader.DataPacketFormats
  sap_identifier : EnumVal DmrDataHeader.SapIdentifiers
  appended_blocks_lsb : Nat
  llid_destination : Nat
  llid_source : Nat
  defined_data : EnumVal DmrDataHeader.DefinedDataFormats
  selective_automatic_repeat_request : Bool
  full_message_flag : Bool
  bit_padding : Nat
  crc : Bytes
  deriving DecidableEq

/-- okdmr/kaitai/etsi/dmr_data_header.py:332-352 `DmrDataHeader.DataHeaderShortDefined._read`. -/
def DmrDataHeader.DataHeaderShortDefined.read : Rd DmrDataHeader.DataHeaderShortDefined := do
  let llid_destination_is_group ← readFlag
  let response_requested ← readFlag
  let appended_blocks_msb ← readBitsIntBe 2
  let format ← asEnum DmrDataHeader.DataPacketFormats (readBitsIntBe 4)
  let sap_identifier ← asEnum DmrDataHeader.SapIdentifiers (readBitsIntBe 4)
  let appended_blocks_lsb ← readBitsIntBe 4
  let llid_destination ← readBitsIntBe 24
  let llid_source ← readBitsIntBe 24
  let defined_data ← asEnum DmrDataHeader.DefinedDataFormats (readBitsIntBe 6)
  let selective_automatic_repeat_request ← readFlag
  let full_message_flag ← readFlag
  let bit_padding ← readBitsIntBe 8
  alignToByte
  let crc ← readBytes 2
  return { llid_destination_is_group, response_requested, appended_blocks_msb, format, sap_identifier, appended_blocks_lsb, llid_destination, llid_source, defined_data, selective_automatic_repeat_request, full_message_flag, bit_padding, crc }

/-- okdmr/kaitai/etsi/dmr_data_header.py:373-397 attributes of `DmrDataHeader.DataHeaderUdt`. -/
structure DmrDataHeader.DataHeaderUdt where
  llid_destination_is_group : Bool
  response_requested : Bool
  reserved1 : Nat
  format : EnumVal DmrDataHeader.DataPacketFormats
  sap_identifier : EnumVal DmrDataHeader.SapIdentifiers
  udt_format : EnumVal DmrDataHeader.UdtFormats
  llid_destination : Nat
  llid_source : Nat
  pad_nibble : Nat
  reserved2 : Bool
  appended_blocks : Nat
  supplementary_flag : Bool
  protect_flag : Bool
  udt_opcode : EnumVal DmrDataHeader.CsbkMbcUdtOpcodes
  crc : Bytes
  deriving DecidableEq

/-- okdmr/kaitai/etsi/dmr_data_header.py:373-397 `DmrDataHeader.DataHeaderUdt._read`. -/
def DmrDataHeader.DataHeaderUdt.read : Rd DmrDataHeader.DataHeaderUdt := do
  let llid_destination_is_group ← readFlag
  let response_requested ← readFlag
  let reserved1 ← readBitsIntBe 2
  let format ← asEnum DmrDataHeader.DataPacketFormats (readBitsIntBe 4)
  let sap_identifier ← asEnum DmrDataHeader.SapIdentifiers (readBitsIntBe 4)
  let udt_format ← asEnum DmrDataHeader.UdtFormats (readBitsIntBe 4)
  let llid_destination ← readBitsIntBe 24
  let llid_source ← readBitsIntBe 24
  let pad_nibble ← readBitsIntBe 5
  let reserved2 ← readFlag
  let appended_blocks ← readBitsIntBe 2
  let supplementary_flag ← readFlag
  let protect_flag ← readFlag
  let udt_opcode ← asEnum DmrDataHeader.CsbkMbcUdtOpcodes (readBitsIntBe 6)
  alignToByte
  let crc ← readBytes 2
  return { llid_destination_is_group, response_requested, reserved1, format, sap_identifier, udt_format, llid_destination, llid_source, pad_nibble, reserved2, appended_blocks, supplementary_flag, protect_flag, udt_opcode, crc }

/-- okdmr/kaitai/etsi/dmr_data_header.py:115-119 attributes of `DmrDataHeader`. -/
structure DmrDataHeader where
  skip4 : Nat
  data_packet_format : EnumVal DmrDataHeader.DataPacketFormats
  deriving DecidableEq

/-- okdmr/kaitai/etsi/dmr_data_header.py:115-119 `DmrDataHeader._read`. -/
def DmrDataHeader.read : Rd DmrDataHeader := do
  let skip4 ← readBitsIntBe 4
  let data_packet_format ← asEnum DmrDataHeader.DataPacketFormats (readBitsIntBe 4)
  return { skip4, data_packet_format }

/-- okdmr/kaitai/etsi/dmr_data_header.py:151-159 property `appended_blocks` of `DataHeaderShortRaw`
(hand-written). -/
def DmrDataHeader.DataHeaderShortRaw.appended_blocks (o : DmrDataHeader.DataHeaderShortRaw) : Nat :=
  (o.appended_blocks_msb <<< 4) + o.appended_blocks_lsb

/-- okdmr/kaitai/etsi/dmr_data_header.py:220-228 property `appended_blocks` of `DataHeaderShortStatusPrecoded`
(hand-written). -/
def DmrDataHeader.DataHeaderShortStatusPrecoded.appended_blocks (o : DmrDataHeader.DataHeaderShortStatusPrecoded) : Nat :=
  (o.appended_blocks_msb <<< 4) + o.appended_blocks_lsb

/-- okdmr/kaitai/etsi/dmr_data_header.py:354-362 property `appended_blocks` of `DataHeaderShortDefined`
(hand-written). -/
def DmrDataHeader.DataHeaderShortDefined.appended_blocks (o : DmrDataHeader.DataHeaderShortDefined) : Nat :=
  (o.appended_blocks_msb <<< 4) + o.appended_blocks_lsb

/-- okdmr/kaitai/etsi/dmr_data_header.py:407-457 possible objects in `DmrDataHeader.data` (hand-written). -/
inductive DmrDataHeader.DataUnion where
  | dataHeaderProprietary (x : DmrDataHeader.DataHeaderProprietary)
  | dataHeaderShortDefined (x : DmrDataHeader.DataHeaderShortDefined)
  | dataHeaderUnconfirmed (x : DmrDataHeader.DataHeaderUnconfirmed)
  | dataHeaderConfirmed (x : DmrDataHeader.DataHeaderConfirmed)
  | dataHeaderUdt (x : DmrDataHeader.DataHeaderUdt)
  | dataHeaderShortStatusPrecoded (x : DmrDataHeader.DataHeaderShortStatusPrecoded)
  | dataHeaderResponse (x : DmrDataHeader.DataHeaderResponse)
  | dataHeaderUndefined (x : DmrDataHeader.DataHeaderUndefined)
  deriving DecidableEq

/-- okdmr/kaitai/etsi/dmr_data_header.py:407-457 the dispatch on the sub-stream of the 12 raw bytes (hand-written). -/
def DmrDataHeader.readDataBody (on : EnumVal DmrDataHeader.DataPacketFormats) : Rd DmrDataHeader.DataUnion :=
  if on = .known .proprietary then do let x ← DmrDataHeader.DataHeaderProprietary.read; return .dataHeaderProprietary x
  else if on = .known .short_data_defined then do let x ← DmrDataHeader.DataHeaderShortDefined.read; return .dataHeaderShortDefined x
  else if on = .known .data_packet_unconfirmed then do let x ← DmrDataHeader.DataHeaderUnconfirmed.read; return .dataHeaderUnconfirmed x
  else if on = .known .data_packet_confirmed then do let x ← DmrDataHeader.DataHeaderConfirmed.read; return .dataHeaderConfirmed x
  else if on = .known .unified_data_transport then do let x ← DmrDataHeader.DataHeaderUdt.read; return .dataHeaderUdt x
  else if on = .known .short_data_raw_or_status_or_precoded then do let x ← DmrDataHeader.DataHeaderShortStatusPrecoded.read; return .dataHeaderShortStatusPrecoded x
  else if on = .known .response_packet then do let x ← DmrDataHeader.DataHeaderResponse.read; return .dataHeaderResponse x
  else do let x ← DmrDataHeader.DataHeaderUndefined.read; return .dataHeaderUndefined x

/-- okdmr/kaitai/etsi/dmr_data_header.py:399-459 the Python object while its lazy property is being used
(hand-written): the parsed attributes, the caches `_m_data` and `_raw__m_data`, and the stream it keeps. -/
structure DmrDataHeader.Obj where
  attrs : DmrDataHeader
  m_data : Option DmrDataHeader.DataUnion
  raw_m_data : Option Bytes
  io : Stream
  deriving DecidableEq

/-- okdmr/kaitai/etsi/dmr_data_header.py:399-459 one access to property `data` (hand-written): the result or
exception, and the object afterwards (an exception leaves the stream where the failed read left it). -/
def DmrDataHeader.accessData (o : DmrDataHeader.Obj) :
    Except PyErr DmrDataHeader.DataUnion × DmrDataHeader.Obj :=
  match o.m_data with
  | some d => (.ok d, o)
  | none =>
    match (do let pos ← posIo
              seekIo 0
              let raw ← readBytes 12
              return (pos, raw) : Rd (Nat × Bytes)) o.io with
    | (.error e, io) => (.error e, { o with io })
    | (.ok (pos, raw), io) =>
      let o := { o with raw_m_data := some raw, io }
      match fromBytes (DmrDataHeader.readDataBody o.attrs.data_packet_format) raw with
      | .error e => (.error e, o)
      | .ok d =>
        let io := (seekIo pos io).2
        (.ok d, { o with m_data := some d, io })

/-- okdmr/kaitai/etsi/dmr_data_header.py:109-119 `DmrDataHeader.from_bytes(buf)` as an object with its
stream (hand-written). -/
def DmrDataHeader.objFromBytes (buf : Bytes) : Except PyErr DmrDataHeader.Obj :=
  match DmrDataHeader.read (Stream.new buf) with
  | (.error e, _) => .error e
  | (.ok a, io) => .ok { attrs := a, m_data := none, raw_m_data := none, io }

end Dmr.Etsi
