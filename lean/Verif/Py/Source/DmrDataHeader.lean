import Verif.Py.Syntax
/-
Generated by tools/mkpyast.py: okdmr/kaitai/etsi/dmr_data_header.py as data.
-/

set_option autoImplicit false

namespace Dmr.Py.Source.Etsi

/-- okdmr/kaitai/etsi/dmr_data_header.py:18-29 -/
def DmrDataHeader.UdtFormats : EnumDef where
  qualified := "Etsi.DmrDataHeader.UdtFormats"
  name := "UdtFormats"
  members := [("binary", 0), ("ms_or_tg_address", 1), ("bcd_4bit", 2), ("iso_7bit_coded_characters", 3), ("iso_8bit_coded_characters", 4), ("nmea_location_coded", 5), ("ip_address", 6), ("unicode_16bit_characters", 7), ("manufacturer_specific", 8), ("manufacturer_specific_2", 9), ("mixed_address_and_16bit_utf16be_characters", 10)]

/-- okdmr/kaitai/etsi/dmr_data_header.py:31-57 -/
def DmrDataHeader.CsbkMbcUdtOpcodes : EnumDef where
  qualified := "Etsi.DmrDataHeader.CsbkMbcUdtOpcodes"
  name := "CsbkMbcUdtOpcodes"
  members := [("c_aloha", 25), ("c_udthd", 26), ("c_udthu", 27), ("c_or_p_ahoy", 28), ("c_ackvit", 30), ("c_rand", 31), ("c_ackd", 32), ("c_acku", 33), ("p_ackd", 34), ("p_acku", 35), ("c_dgnahd", 36), ("c_dgnahu", 37), ("c_bcast", 40), ("p_maint", 42), ("p_clear", 46), ("p_protect", 47), ("pv_grant", 48), ("tv_grant", 49), ("btv_grant", 50), ("pd_grant", 51), ("td_grant", 52), ("pv_grant_dx", 53), ("pd_grant_dx", 54), ("pd_grant_mi", 55), ("td_grant_mi", 56), ("c_move", 57)]

/-- okdmr/kaitai/etsi/dmr_data_header.py:59-66 -/
def DmrDataHeader.DataPacketFormats : EnumDef where
  qualified := "Etsi.DmrDataHeader.DataPacketFormats"
  name := "DataPacketFormats"
  members := [("unified_data_transport", 0), ("response_packet", 1), ("data_packet_unconfirmed", 2), ("data_packet_confirmed", 3), ("short_data_defined", 13), ("short_data_raw_or_status_or_precoded", 14), ("proprietary", 15)]

/-- okdmr/kaitai/etsi/dmr_data_header.py:68-75 -/
def DmrDataHeader.SapIdentifiers : EnumDef where
  qualified := "Etsi.DmrDataHeader.SapIdentifiers"
  name := "SapIdentifiers"
  members := [("unified_data_transport", 0), ("tcp_ip_header_compression", 2), ("udp_ip_header_compression", 3), ("ip_based_packet_data", 4), ("arp_address_resolution_protocol", 5), ("proprietary_packet_data", 9), ("short_data", 10)]

/-- okdmr/kaitai/etsi/dmr_data_header.py:77-102 -/
def DmrDataHeader.DefinedDataFormats : EnumDef where
  qualified := "Etsi.DmrDataHeader.DefinedDataFormats"
  name := "DefinedDataFormats"
  members := [("binary", 0), ("bcd", 1), ("coding_7bit", 2), ("coding_8bit_8859_1", 3), ("coding_8bit_8859_2", 4), ("coding_8bit_8859_3", 5), ("coding_8bit_8859_4", 6), ("coding_8bit_8859_5", 7), ("coding_8bit_8859_6", 8), ("coding_8bit_8859_7", 9), ("coding_8bit_8859_8", 10), ("coding_8bit_8859_9", 11), ("coding_8bit_8859_10", 12), ("coding_8bit_8859_11", 13), ("coding_8bit_8859_13", 14), ("coding_8bit_8859_14", 15), ("coding_8bit_8859_15", 16), ("coding_8bit_8859_16", 17), ("unicode_utf8", 18), ("unicode_utf16", 19), ("unicode_utf16be", 20), ("unicode_utf16le", 21), ("unicode_utf32", 22), ("unicode_utf32be", 23), ("unicode_utf32le", 24)]

/-- okdmr/kaitai/etsi/dmr_data_header.py:104-107 -/
def DmrDataHeader.ResponsePacketClasses : EnumDef where
  qualified := "Etsi.DmrDataHeader.ResponsePacketClasses"
  name := "ResponsePacketClasses"
  members := [("ack", 0), ("nack", 1), ("sack", 2)]

/-- okdmr/kaitai/etsi/dmr_data_header.py:121-159 -/
def DmrDataHeader.DataHeaderShortRaw : ClassDef where
  name := "Etsi.DmrDataHeader.DataHeaderShortRaw"
  methods := [("__init__", ⟨["self", "_io", "_parent", "_root"],
      [.setattr (.name "self") "_io" (.name "_io"),
       .setattr (.name "self") "_parent" (.name "_parent"),
       .setattr (.name "self") "_root" (.ifExp (.name "_root") (.name "_root") (.name "self")),
       .expr (.call (.attr (.name "self") "_read") [])]⟩),
    ("_read", ⟨["self"],
      [.setattr (.name "self") "llid_destination_is_group" (.cmp .ne (.call (.attr (.attr (.name "self") "_io") "read_bits_int_be") [.int 1]) (.int 0)),
       .setattr (.name "self") "response_requested" (.cmp .ne (.call (.attr (.attr (.name "self") "_io") "read_bits_int_be") [.int 1]) (.int 0)),
       .setattr (.name "self") "appended_blocks_msb" (.call (.attr (.attr (.name "self") "_io") "read_bits_int_be") [.int 2]),
       .setattr (.name "self") "format" (.call (.attr (.global "KaitaiStream") "resolve_enum") [.enum "Etsi.DmrDataHeader.DataPacketFormats", .call (.attr (.attr (.name "self") "_io") "read_bits_int_be") [.int 4]]),
       .setattr (.name "self") "sap_identifier" (.call (.attr (.global "KaitaiStream") "resolve_enum") [.enum "Etsi.DmrDataHeader.SapIdentifiers", .call (.attr (.attr (.name "self") "_io") "read_bits_int_be") [.int 4]]),
       .setattr (.name "self") "appended_blocks_lsb" (.call (.attr (.attr (.name "self") "_io") "read_bits_int_be") [.int 4]),
       .setattr (.name "self") "llid_destination" (.call (.attr (.attr (.name "self") "_io") "read_bits_int_be") [.int 24]),
       .setattr (.name "self") "llid_source" (.call (.attr (.attr (.name "self") "_io") "read_bits_int_be") [.int 24]),
       .setattr (.name "self") "source_port" (.call (.attr (.attr (.name "self") "_io") "read_bits_int_be") [.int 3]),
       .setattr (.name "self") "destination_port" (.call (.attr (.attr (.name "self") "_io") "read_bits_int_be") [.int 3]),
       .setattr (.name "self") "selective_automatic_repeat_request" (.cmp .ne (.call (.attr (.attr (.name "self") "_io") "read_bits_int_be") [.int 1]) (.int 0)),
       .setattr (.name "self") "full_message_flag" (.cmp .ne (.call (.attr (.attr (.name "self") "_io") "read_bits_int_be") [.int 1]) (.int 0)),
       .setattr (.name "self") "bit_padding" (.call (.attr (.attr (.name "self") "_io") "read_bits_int_be") [.int 8]),
       .expr (.call (.attr (.attr (.name "self") "_io") "align_to_byte") []),
       .setattr (.name "self") "crc" (.call (.attr (.attr (.name "self") "_io") "read_bytes") [.int 2])]⟩)]
  properties := [("appended_blocks", ⟨["self"],
      [.if_ (.call (.global "hasattr") [.name "self", .str "_m_appended_blocks"])
        [.return_ (.attr (.name "self") "_m_appended_blocks")]
        [],
       .setattr (.name "self") "_m_appended_blocks" (.bin .add (.bin .shl (.attr (.name "self") "appended_blocks_msb") (.int 4)) (.attr (.name "self") "appended_blocks_lsb")),
       .return_ (.call (.global "getattr") [.name "self", .str "_m_appended_blocks", .none])]⟩)]

/-- okdmr/kaitai/etsi/dmr_data_header.py:161-180 -/
def DmrDataHeader.DataHeaderProprietary : ClassDef where
  name := "Etsi.DmrDataHeader.DataHeaderProprietary"
  methods := [("__init__", ⟨["self", "_io", "_parent", "_root"],
      [.setattr (.name "self") "_io" (.name "_io"),
       .setattr (.name "self") "_parent" (.name "_parent"),
       .setattr (.name "self") "_root" (.ifExp (.name "_root") (.name "_root") (.name "self")),
       .expr (.call (.attr (.name "self") "_read") [])]⟩),
    ("_read", ⟨["self"],
      [.setattr (.name "self") "sap_identifier" (.call (.attr (.global "KaitaiStream") "resolve_enum") [.enum "Etsi.DmrDataHeader.SapIdentifiers", .call (.attr (.attr (.name "self") "_io") "read_bits_int_be") [.int 4]]),
       .setattr (.name "self") "format" (.call (.attr (.global "KaitaiStream") "resolve_enum") [.enum "Etsi.DmrDataHeader.DataPacketFormats", .call (.attr (.attr (.name "self") "_io") "read_bits_int_be") [.int 4]]),
       .setattr (.name "self") "mfid" (.call (.attr (.attr (.name "self") "_io") "read_bits_int_be") [.int 8]),
       .expr (.call (.attr (.attr (.name "self") "_io") "align_to_byte") []),
       .setattr (.name "self") "proprietary_data" (.call (.attr (.attr (.name "self") "_io") "read_bytes") [.int 8]),
       .setattr (.name "self") "crc" (.call (.attr (.attr (.name "self") "_io") "read_bytes") [.int 2])]⟩)]
  properties := []

/-- okdmr/kaitai/etsi/dmr_data_header.py:182-190 -/
def DmrDataHeader.DataHeaderUndefined : ClassDef where
  name := "Etsi.DmrDataHeader.DataHeaderUndefined"
  methods := [("__init__", ⟨["self", "_io", "_parent", "_root"],
      [.setattr (.name "self") "_io" (.name "_io"),
       .setattr (.name "self") "_parent" (.name "_parent"),
       .setattr (.name "self") "_root" (.ifExp (.name "_root") (.name "_root") (.name "self")),
       .expr (.call (.attr (.name "self") "_read") [])]⟩),
    ("_read", ⟨["self"],
      [.setattr (.name "self") "bytedata" (.call (.attr (.attr (.name "self") "_io") "read_bytes_full") [])]⟩)]
  properties := []

/-- okdmr/kaitai/etsi/dmr_data_header.py:192-228 -/
def DmrDataHeader.DataHeaderShortStatusPrecoded : ClassDef where
  name := "Etsi.DmrDataHeader.DataHeaderShortStatusPrecoded"
  methods := [("__init__", ⟨["self", "_io", "_parent", "_root"],
      [.setattr (.name "self") "_io" (.name "_io"),
       .setattr (.name "self") "_parent" (.name "_parent"),
       .setattr (.name "self") "_root" (.ifExp (.name "_root") (.name "_root") (.name "self")),
       .expr (.call (.attr (.name "self") "_read") [])]⟩),
    ("_read", ⟨["self"],
      [.setattr (.name "self") "llid_destination_is_group" (.cmp .ne (.call (.attr (.attr (.name "self") "_io") "read_bits_int_be") [.int 1]) (.int 0)),
       .setattr (.name "self") "response_requested" (.cmp .ne (.call (.attr (.attr (.name "self") "_io") "read_bits_int_be") [.int 1]) (.int 0)),
       .setattr (.name "self") "appended_blocks_msb" (.call (.attr (.attr (.name "self") "_io") "read_bits_int_be") [.int 2]),
       .setattr (.name "self") "format" (.call (.attr (.global "KaitaiStream") "resolve_enum") [.enum "Etsi.DmrDataHeader.DataPacketFormats", .call (.attr (.attr (.name "self") "_io") "read_bits_int_be") [.int 4]]),
       .setattr (.name "self") "sap_identifier" (.call (.attr (.global "KaitaiStream") "resolve_enum") [.enum "Etsi.DmrDataHeader.SapIdentifiers", .call (.attr (.attr (.name "self") "_io") "read_bits_int_be") [.int 4]]),
       .setattr (.name "self") "appended_blocks_lsb" (.call (.attr (.attr (.name "self") "_io") "read_bits_int_be") [.int 4]),
       .setattr (.name "self") "llid_destination" (.call (.attr (.attr (.name "self") "_io") "read_bits_int_be") [.int 24]),
       .setattr (.name "self") "llid_source" (.call (.attr (.attr (.name "self") "_io") "read_bits_int_be") [.int 24]),
       .setattr (.name "self") "source_port" (.call (.attr (.attr (.name "self") "_io") "read_bits_int_be") [.int 3]),
       .setattr (.name "self") "destination_port" (.call (.attr (.attr (.name "self") "_io") "read_bits_int_be") [.int 3]),
       .setattr (.name "self") "status_precoded" (.call (.attr (.attr (.name "self") "_io") "read_bits_int_be") [.int 10]),
       .expr (.call (.attr (.attr (.name "self") "_io") "align_to_byte") []),
       .setattr (.name "self") "crc" (.call (.attr (.attr (.name "self") "_io") "read_bytes") [.int 2])]⟩)]
  properties := [("appended_blocks", ⟨["self"],
      [.if_ (.call (.global "hasattr") [.name "self", .str "_m_appended_blocks"])
        [.return_ (.attr (.name "self") "_m_appended_blocks")]
        [],
       .setattr (.name "self") "_m_appended_blocks" (.bin .add (.bin .shl (.attr (.name "self") "appended_blocks_msb") (.int 4)) (.attr (.name "self") "appended_blocks_lsb")),
       .return_ (.call (.global "getattr") [.name "self", .str "_m_appended_blocks", .none])]⟩)]

/-- okdmr/kaitai/etsi/dmr_data_header.py:230-260 -/
def DmrDataHeader.DataHeaderResponse : ClassDef where
  name := "Etsi.DmrDataHeader.DataHeaderResponse"
  methods := [("__init__", ⟨["self", "_io", "_parent", "_root"],
      [.setattr (.name "self") "_io" (.name "_io"),
       .setattr (.name "self") "_parent" (.name "_parent"),
       .setattr (.name "self") "_root" (.ifExp (.name "_root") (.name "_root") (.name "self")),
       .expr (.call (.attr (.name "self") "_read") [])]⟩),
    ("_read", ⟨["self"],
      [.setattr (.name "self") "reserved1" (.cmp .ne (.call (.attr (.attr (.name "self") "_io") "read_bits_int_be") [.int 1]) (.int 0)),
       .setattr (.name "self") "response_requested" (.cmp .ne (.call (.attr (.attr (.name "self") "_io") "read_bits_int_be") [.int 1]) (.int 0)),
       .setattr (.name "self") "reserved2" (.call (.attr (.attr (.name "self") "_io") "read_bits_int_be") [.int 2]),
       .setattr (.name "self") "format" (.call (.attr (.global "KaitaiStream") "resolve_enum") [.enum "Etsi.DmrDataHeader.DataPacketFormats", .call (.attr (.attr (.name "self") "_io") "read_bits_int_be") [.int 4]]),
       .setattr (.name "self") "sap_identifier" (.call (.attr (.global "KaitaiStream") "resolve_enum") [.enum "Etsi.DmrDataHeader.SapIdentifiers", .call (.attr (.attr (.name "self") "_io") "read_bits_int_be") [.int 4]]),
       .setattr (.name "self") "reserved3" (.call (.attr (.attr (.name "self") "_io") "read_bits_int_be") [.int 4]),
       .setattr (.name "self") "llid_destination" (.call (.attr (.attr (.name "self") "_io") "read_bits_int_be") [.int 24]),
       .setattr (.name "self") "llid_source" (.call (.attr (.attr (.name "self") "_io") "read_bits_int_be") [.int 24]),
       .setattr (.name "self") "full_message_flag" (.cmp .ne (.call (.attr (.attr (.name "self") "_io") "read_bits_int_be") [.int 1]) (.int 0)),
       .setattr (.name "self") "blocks_to_follow" (.call (.attr (.attr (.name "self") "_io") "read_bits_int_be") [.int 7]),
       .setattr (.name "self") "response_class" (.call (.attr (.global "KaitaiStream") "resolve_enum") [.enum "Etsi.DmrDataHeader.ResponsePacketClasses", .call (.attr (.attr (.name "self") "_io") "read_bits_int_be") [.int 2]]),
       .setattr (.name "self") "response_type" (.call (.attr (.attr (.name "self") "_io") "read_bits_int_be") [.int 3]),
       .setattr (.name "self") "response_status" (.call (.attr (.attr (.name "self") "_io") "read_bits_int_be") [.int 3]),
       .expr (.call (.attr (.attr (.name "self") "_io") "align_to_byte") []),
       .setattr (.name "self") "crc" (.call (.attr (.attr (.name "self") "_io") "read_bytes") [.int 2])]⟩)]
  properties := []

/-- okdmr/kaitai/etsi/dmr_data_header.py:262-291 -/
def DmrDataHeader.DataHeaderConfirmed : ClassDef where
  name := "Etsi.DmrDataHeader.DataHeaderConfirmed"
  methods := [("__init__", ⟨["self", "_io", "_parent", "_root"],
      [.setattr (.name "self") "_io" (.name "_io"),
       .setattr (.name "self") "_parent" (.name "_parent"),
       .setattr (.name "self") "_root" (.ifExp (.name "_root") (.name "_root") (.name "self")),
       .expr (.call (.attr (.name "self") "_read") [])]⟩),
    ("_read", ⟨["self"],
      [.setattr (.name "self") "llid_destination_is_group" (.cmp .ne (.call (.attr (.attr (.name "self") "_io") "read_bits_int_be") [.int 1]) (.int 0)),
       .setattr (.name "self") "response_requested" (.cmp .ne (.call (.attr (.attr (.name "self") "_io") "read_bits_int_be") [.int 1]) (.int 0)),
       .setattr (.name "self") "reserved1" (.cmp .ne (.call (.attr (.attr (.name "self") "_io") "read_bits_int_be") [.int 1]) (.int 0)),
       .setattr (.name "self") "pad_octet_count_msb" (.cmp .ne (.call (.attr (.attr (.name "self") "_io") "read_bits_int_be") [.int 1]) (.int 0)),
       .setattr (.name "self") "format" (.call (.attr (.global "KaitaiStream") "resolve_enum") [.enum "Etsi.DmrDataHeader.DataPacketFormats", .call (.attr (.attr (.name "self") "_io") "read_bits_int_be") [.int 4]]),
       .setattr (.name "self") "sap_identifier" (.call (.attr (.global "KaitaiStream") "resolve_enum") [.enum "Etsi.DmrDataHeader.SapIdentifiers", .call (.attr (.attr (.name "self") "_io") "read_bits_int_be") [.int 4]]),
       .setattr (.name "self") "pad_octet_count" (.call (.attr (.attr (.name "self") "_io") "read_bits_int_be") [.int 4]),
       .setattr (.name "self") "llid_destination" (.call (.attr (.attr (.name "self") "_io") "read_bits_int_be") [.int 24]),
       .setattr (.name "self") "llid_source" (.call (.attr (.attr (.name "self") "_io") "read_bits_int_be") [.int 24]),
       .setattr (.name "self") "full_message_flag" (.cmp .ne (.call (.attr (.attr (.name "self") "_io") "read_bits_int_be") [.int 1]) (.int 0)),
       .setattr (.name "self") "blocks_to_follow" (.call (.attr (.attr (.name "self") "_io") "read_bits_int_be") [.int 7]),
       .setattr (.name "self") "resynchronize_flag" (.cmp .ne (.call (.attr (.attr (.name "self") "_io") "read_bits_int_be") [.int 1]) (.int 0)),
       .setattr (.name "self") "send_sequence_number" (.call (.attr (.attr (.name "self") "_io") "read_bits_int_be") [.int 3]),
       .setattr (.name "self") "fragment_sequence_number" (.call (.attr (.attr (.name "self") "_io") "read_bits_int_be") [.int 4]),
       .expr (.call (.attr (.attr (.name "self") "_io") "align_to_byte") []),
       .setattr (.name "self") "crc" (.call (.attr (.attr (.name "self") "_io") "read_bytes") [.int 2])]⟩)]
  properties := []

/-- okdmr/kaitai/etsi/dmr_data_header.py:293-321 -/
def DmrDataHeader.DataHeaderUnconfirmed : ClassDef where
  name := "Etsi.DmrDataHeader.DataHeaderUnconfirmed"
  methods := [("__init__", ⟨["self", "_io", "_parent", "_root"],
      [.setattr (.name "self") "_io" (.name "_io"),
       .setattr (.name "self") "_parent" (.name "_parent"),
       .setattr (.name "self") "_root" (.ifExp (.name "_root") (.name "_root") (.name "self")),
       .expr (.call (.attr (.name "self") "_read") [])]⟩),
    ("_read", ⟨["self"],
      [.setattr (.name "self") "llid_destination_is_group" (.cmp .ne (.call (.attr (.attr (.name "self") "_io") "read_bits_int_be") [.int 1]) (.int 0)),
       .setattr (.name "self") "response_requested" (.cmp .ne (.call (.attr (.attr (.name "self") "_io") "read_bits_int_be") [.int 1]) (.int 0)),
       .setattr (.name "self") "reserved1" (.cmp .ne (.call (.attr (.attr (.name "self") "_io") "read_bits_int_be") [.int 1]) (.int 0)),
       .setattr (.name "self") "pad_octet_count_msb" (.cmp .ne (.call (.attr (.attr (.name "self") "_io") "read_bits_int_be") [.int 1]) (.int 0)),
       .setattr (.name "self") "format" (.call (.attr (.global "KaitaiStream") "resolve_enum") [.enum "Etsi.DmrDataHeader.DataPacketFormats", .call (.attr (.attr (.name "self") "_io") "read_bits_int_be") [.int 4]]),
       .setattr (.name "self") "sap_identifier" (.call (.attr (.global "KaitaiStream") "resolve_enum") [.enum "Etsi.DmrDataHeader.SapIdentifiers", .call (.attr (.attr (.name "self") "_io") "read_bits_int_be") [.int 4]]),
       .setattr (.name "self") "pad_octet_count" (.call (.attr (.attr (.name "self") "_io") "read_bits_int_be") [.int 4]),
       .setattr (.name "self") "llid_destination" (.call (.attr (.attr (.name "self") "_io") "read_bits_int_be") [.int 24]),
       .setattr (.name "self") "llid_source" (.call (.attr (.attr (.name "self") "_io") "read_bits_int_be") [.int 24]),
       .setattr (.name "self") "full_message_flag" (.cmp .ne (.call (.attr (.attr (.name "self") "_io") "read_bits_int_be") [.int 1]) (.int 0)),
       .setattr (.name "self") "blocks_to_follow" (.call (.attr (.attr (.name "self") "_io") "read_bits_int_be") [.int 7]),
       .setattr (.name "self") "reserved2" (.call (.attr (.attr (.name "self") "_io") "read_bits_int_be") [.int 4]),
       .setattr (.name "self") "fragment_sequence_number" (.call (.attr (.attr (.name "self") "_io") "read_bits_int_be") [.int 4]),
       .expr (.call (.attr (.attr (.name "self") "_io") "align_to_byte") []),
       .setattr (.name "self") "crc" (.call (.attr (.attr (.name "self") "_io") "read_bytes") [.int 2])]⟩)]
  properties := []

/-- okdmr/kaitai/etsi/dmr_data_header.py:323-362 -/
def DmrDataHeader.DataHeaderShortDefined : ClassDef where
  name := "Etsi.DmrDataHeader.DataHeaderShortDefined"
  methods := [("__init__", ⟨["self", "_io", "_parent", "_root"],
      [.setattr (.name "self") "_io" (.name "_io"),
       .setattr (.name "self") "_parent" (.name "_parent"),
       .setattr (.name "self") "_root" (.ifExp (.name "_root") (.name "_root") (.name "self")),
       .expr (.call (.attr (.name "self") "_read") [])]⟩),
    ("_read", ⟨["self"],
      [.setattr (.name "self") "llid_destination_is_group" (.cmp .ne (.call (.attr (.attr (.name "self") "_io") "read_bits_int_be") [.int 1]) (.int 0)),
       .setattr (.name "self") "response_requested" (.cmp .ne (.call (.attr (.attr (.name "self") "_io") "read_bits_int_be") [.int 1]) (.int 0)),
       .setattr (.name "self") "appended_blocks_msb" (.call (.attr (.attr (.name "self") "_io") "read_bits_int_be") [.int 2]),
       .setattr (.name "self") "format" (.call (.attr (.global "KaitaiStream") "resolve_enum") [.enum "Etsi.DmrDataHeader.DataPacketFormats", .call (.attr (.attr (.name "self") "_io") "read_bits_int_be") [.int 4]]),
       .setattr (.name "self") "sap_identifier" (.call (.attr (.global "KaitaiStream") "resolve_enum") [.enum "Etsi.DmrDataHeader.SapIdentifiers", .call (.attr (.attr (.name "self") "_io") "read_bits_int_be") [.int 4]]),
       .setattr (.name "self") "appended_blocks_lsb" (.call (.attr (.attr (.name "self") "_io") "read_bits_int_be") [.int 4]),
       .setattr (.name "self") "llid_destination" (.call (.attr (.attr (.name "self") "_io") "read_bits_int_be") [.int 24]),
       .setattr (.name "self") "llid_source" (.call (.attr (.attr (.name "self") "_io") "read_bits_int_be") [.int 24]),
       .setattr (.name "self") "defined_data" (.call (.attr (.global "KaitaiStream") "resolve_enum") [.enum "Etsi.DmrDataHeader.DefinedDataFormats", .call (.attr (.attr (.name "self") "_io") "read_bits_int_be") [.int 6]]),
       .setattr (.name "self") "selective_automatic_repeat_request" (.cmp .ne (.call (.attr (.attr (.name "self") "_io") "read_bits_int_be") [.int 1]) (.int 0)),
       .setattr (.name "self") "full_message_flag" (.cmp .ne (.call (.attr (.attr (.name "self") "_io") "read_bits_int_be") [.int 1]) (.int 0)),
       .setattr (.name "self") "bit_padding" (.call (.attr (.attr (.name "self") "_io") "read_bits_int_be") [.int 8]),
       .expr (.call (.attr (.attr (.name "self") "_io") "align_to_byte") []),
       .setattr (.name "self") "crc" (.call (.attr (.attr (.name "self") "_io") "read_bytes") [.int 2])]⟩)]
  properties := [("appended_blocks", ⟨["self"],
      [.if_ (.call (.global "hasattr") [.name "self", .str "_m_appended_blocks"])
        [.return_ (.attr (.name "self") "_m_appended_blocks")]
        [],
       .setattr (.name "self") "_m_appended_blocks" (.bin .add (.bin .shl (.attr (.name "self") "appended_blocks_msb") (.int 4)) (.attr (.name "self") "appended_blocks_lsb")),
       .return_ (.call (.global "getattr") [.name "self", .str "_m_appended_blocks", .none])]⟩)]

/-- okdmr/kaitai/etsi/dmr_data_header.py:364-397 -/
def DmrDataHeader.DataHeaderUdt : ClassDef where
  name := "Etsi.DmrDataHeader.DataHeaderUdt"
  methods := [("__init__", ⟨["self", "_io", "_parent", "_root"],
      [.setattr (.name "self") "_io" (.name "_io"),
       .setattr (.name "self") "_parent" (.name "_parent"),
       .setattr (.name "self") "_root" (.ifExp (.name "_root") (.name "_root") (.name "self")),
       .expr (.call (.attr (.name "self") "_read") [])]⟩),
    ("_read", ⟨["self"],
      [.setattr (.name "self") "llid_destination_is_group" (.cmp .ne (.call (.attr (.attr (.name "self") "_io") "read_bits_int_be") [.int 1]) (.int 0)),
       .setattr (.name "self") "response_requested" (.cmp .ne (.call (.attr (.attr (.name "self") "_io") "read_bits_int_be") [.int 1]) (.int 0)),
       .setattr (.name "self") "reserved1" (.call (.attr (.attr (.name "self") "_io") "read_bits_int_be") [.int 2]),
       .setattr (.name "self") "format" (.call (.attr (.global "KaitaiStream") "resolve_enum") [.enum "Etsi.DmrDataHeader.DataPacketFormats", .call (.attr (.attr (.name "self") "_io") "read_bits_int_be") [.int 4]]),
       .setattr (.name "self") "sap_identifier" (.call (.attr (.global "KaitaiStream") "resolve_enum") [.enum "Etsi.DmrDataHeader.SapIdentifiers", .call (.attr (.attr (.name "self") "_io") "read_bits_int_be") [.int 4]]),
       .setattr (.name "self") "udt_format" (.call (.attr (.global "KaitaiStream") "resolve_enum") [.enum "Etsi.DmrDataHeader.UdtFormats", .call (.attr (.attr (.name "self") "_io") "read_bits_int_be") [.int 4]]),
       .setattr (.name "self") "llid_destination" (.call (.attr (.attr (.name "self") "_io") "read_bits_int_be") [.int 24]),
       .setattr (.name "self") "llid_source" (.call (.attr (.attr (.name "self") "_io") "read_bits_int_be") [.int 24]),
       .setattr (.name "self") "pad_nibble" (.call (.attr (.attr (.name "self") "_io") "read_bits_int_be") [.int 5]),
       .setattr (.name "self") "reserved2" (.cmp .ne (.call (.attr (.attr (.name "self") "_io") "read_bits_int_be") [.int 1]) (.int 0)),
       .setattr (.name "self") "appended_blocks" (.call (.attr (.attr (.name "self") "_io") "read_bits_int_be") [.int 2]),
       .setattr (.name "self") "supplementary_flag" (.cmp .ne (.call (.attr (.attr (.name "self") "_io") "read_bits_int_be") [.int 1]) (.int 0)),
       .setattr (.name "self") "protect_flag" (.cmp .ne (.call (.attr (.attr (.name "self") "_io") "read_bits_int_be") [.int 1]) (.int 0)),
       .setattr (.name "self") "udt_opcode" (.call (.attr (.global "KaitaiStream") "resolve_enum") [.enum "Etsi.DmrDataHeader.CsbkMbcUdtOpcodes", .call (.attr (.attr (.name "self") "_io") "read_bits_int_be") [.int 6]]),
       .expr (.call (.attr (.attr (.name "self") "_io") "align_to_byte") []),
       .setattr (.name "self") "crc" (.call (.attr (.attr (.name "self") "_io") "read_bytes") [.int 2])]⟩)]
  properties := []

/-- okdmr/kaitai/etsi/dmr_data_header.py:15-459 -/
def DmrDataHeader : ClassDef where
  name := "Etsi.DmrDataHeader"
  methods := [("__init__", ⟨["self", "_io", "_parent", "_root"],
      [.setattr (.name "self") "_io" (.name "_io"),
       .setattr (.name "self") "_parent" (.name "_parent"),
       .setattr (.name "self") "_root" (.ifExp (.name "_root") (.name "_root") (.name "self")),
       .expr (.call (.attr (.name "self") "_read") [])]⟩),
    ("_read", ⟨["self"],
      [.setattr (.name "self") "skip4" (.call (.attr (.attr (.name "self") "_io") "read_bits_int_be") [.int 4]),
       .setattr (.name "self") "data_packet_format" (.call (.attr (.global "KaitaiStream") "resolve_enum") [.enum "Etsi.DmrDataHeader.DataPacketFormats", .call (.attr (.attr (.name "self") "_io") "read_bits_int_be") [.int 4]])]⟩)]
  properties := [("data", ⟨["self"],
      [.if_ (.call (.global "hasattr") [.name "self", .str "_m_data"])
        [.return_ (.attr (.name "self") "_m_data")]
        [],
       .assign "io" (.attr (.attr (.name "self") "_root") "_io"),
       .assign "_pos" (.call (.attr (.name "io") "pos") []),
       .expr (.call (.attr (.name "io") "seek") [.int 0]),
       .assign "_on" (.attr (.name "self") "data_packet_format"),
       .if_ (.cmp .eq (.name "_on") (.attr (.enum "Etsi.DmrDataHeader.DataPacketFormats") "proprietary"))
        [.setattr (.name "self") "_raw__m_data" (.call (.attr (.name "io") "read_bytes") [.int 12]),
         .assign "_io__raw__m_data" (.call (.global "KaitaiStream") [.call (.global "BytesIO") [.attr (.name "self") "_raw__m_data"]]),
         .setattr (.name "self") "_m_data" (.call (.cls "Etsi.DmrDataHeader.DataHeaderProprietary") [.name "_io__raw__m_data", .name "self", .attr (.name "self") "_root"])]
        [.if_ (.cmp .eq (.name "_on") (.attr (.enum "Etsi.DmrDataHeader.DataPacketFormats") "short_data_defined"))
          [.setattr (.name "self") "_raw__m_data" (.call (.attr (.name "io") "read_bytes") [.int 12]),
           .assign "_io__raw__m_data" (.call (.global "KaitaiStream") [.call (.global "BytesIO") [.attr (.name "self") "_raw__m_data"]]),
           .setattr (.name "self") "_m_data" (.call (.cls "Etsi.DmrDataHeader.DataHeaderShortDefined") [.name "_io__raw__m_data", .name "self", .attr (.name "self") "_root"])]
          [.if_ (.cmp .eq (.name "_on") (.attr (.enum "Etsi.DmrDataHeader.DataPacketFormats") "data_packet_unconfirmed"))
            [.setattr (.name "self") "_raw__m_data" (.call (.attr (.name "io") "read_bytes") [.int 12]),
             .assign "_io__raw__m_data" (.call (.global "KaitaiStream") [.call (.global "BytesIO") [.attr (.name "self") "_raw__m_data"]]),
             .setattr (.name "self") "_m_data" (.call (.cls "Etsi.DmrDataHeader.DataHeaderUnconfirmed") [.name "_io__raw__m_data", .name "self", .attr (.name "self") "_root"])]
            [.if_ (.cmp .eq (.name "_on") (.attr (.enum "Etsi.DmrDataHeader.DataPacketFormats") "data_packet_confirmed"))
              [.setattr (.name "self") "_raw__m_data" (.call (.attr (.name "io") "read_bytes") [.int 12]),
               .assign "_io__raw__m_data" (.call (.global "KaitaiStream") [.call (.global "BytesIO") [.attr (.name "self") "_raw__m_data"]]),
               .setattr (.name "self") "_m_data" (.call (.cls "Etsi.DmrDataHeader.DataHeaderConfirmed") [.name "_io__raw__m_data", .name "self", .attr (.name "self") "_root"])]
              [.if_ (.cmp .eq (.name "_on") (.attr (.enum "Etsi.DmrDataHeader.DataPacketFormats") "unified_data_transport"))
                [.setattr (.name "self") "_raw__m_data" (.call (.attr (.name "io") "read_bytes") [.int 12]),
                 .assign "_io__raw__m_data" (.call (.global "KaitaiStream") [.call (.global "BytesIO") [.attr (.name "self") "_raw__m_data"]]),
                 .setattr (.name "self") "_m_data" (.call (.cls "Etsi.DmrDataHeader.DataHeaderUdt") [.name "_io__raw__m_data", .name "self", .attr (.name "self") "_root"])]
                [.if_ (.cmp .eq (.name "_on") (.attr (.enum "Etsi.DmrDataHeader.DataPacketFormats") "short_data_raw_or_status_or_precoded"))
                  [.setattr (.name "self") "_raw__m_data" (.call (.attr (.name "io") "read_bytes") [.int 12]),
                   .assign "_io__raw__m_data" (.call (.global "KaitaiStream") [.call (.global "BytesIO") [.attr (.name "self") "_raw__m_data"]]),
                   .setattr (.name "self") "_m_data" (.call (.cls "Etsi.DmrDataHeader.DataHeaderShortStatusPrecoded") [.name "_io__raw__m_data", .name "self", .attr (.name "self") "_root"])]
                  [.if_ (.cmp .eq (.name "_on") (.attr (.enum "Etsi.DmrDataHeader.DataPacketFormats") "response_packet"))
                    [.setattr (.name "self") "_raw__m_data" (.call (.attr (.name "io") "read_bytes") [.int 12]),
                     .assign "_io__raw__m_data" (.call (.global "KaitaiStream") [.call (.global "BytesIO") [.attr (.name "self") "_raw__m_data"]]),
                     .setattr (.name "self") "_m_data" (.call (.cls "Etsi.DmrDataHeader.DataHeaderResponse") [.name "_io__raw__m_data", .name "self", .attr (.name "self") "_root"])]
                    [.setattr (.name "self") "_raw__m_data" (.call (.attr (.name "io") "read_bytes") [.int 12]),
                     .assign "_io__raw__m_data" (.call (.global "KaitaiStream") [.call (.global "BytesIO") [.attr (.name "self") "_raw__m_data"]]),
                     .setattr (.name "self") "_m_data" (.call (.cls "Etsi.DmrDataHeader.DataHeaderUndefined") [.name "_io__raw__m_data", .name "self", .attr (.name "self") "_root"])]]]]]]],
       .expr (.call (.attr (.name "io") "seek") [.name "_pos"]),
       .return_ (.call (.global "getattr") [.name "self", .str "_m_data", .none])]⟩)]

/-- okdmr/kaitai/etsi/dmr_data_header.py -/
def DmrDataHeader.file : File where
  classes := [DmrDataHeader.DataHeaderShortRaw,
    DmrDataHeader.DataHeaderProprietary,
    DmrDataHeader.DataHeaderUndefined,
    DmrDataHeader.DataHeaderShortStatusPrecoded,
    DmrDataHeader.DataHeaderResponse,
    DmrDataHeader.DataHeaderConfirmed,
    DmrDataHeader.DataHeaderUnconfirmed,
    DmrDataHeader.DataHeaderShortDefined,
    DmrDataHeader.DataHeaderUdt,
    DmrDataHeader]
  enums := [DmrDataHeader.UdtFormats,
    DmrDataHeader.CsbkMbcUdtOpcodes,
    DmrDataHeader.DataPacketFormats,
    DmrDataHeader.SapIdentifiers,
    DmrDataHeader.DefinedDataFormats,
    DmrDataHeader.ResponsePacketClasses]

end Dmr.Py.Source.Etsi
