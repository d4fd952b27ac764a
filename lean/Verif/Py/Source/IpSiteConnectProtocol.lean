import Verif.Py.Syntax
/-
Generated by tools/mkpyast.py: okdmr/kaitai/hytera/ip_site_connect_protocol.py as data.
-/

set_option autoImplicit false

namespace Dmr.Py.Source.Hytera

/-- okdmr/kaitai/hytera/ip_site_connect_protocol.py:18-22 -/
def IpSiteConnectProtocol.PacketTypes : EnumDef where
  qualified := "Hytera.IpSiteConnectProtocol.PacketTypes"
  name := "PacketTypes"
  members := [("pi_header", 1), ("a", 65), ("b", 66), ("terminator", 67)]

/-- okdmr/kaitai/hytera/ip_site_connect_protocol.py:24-30 -/
def IpSiteConnectProtocol.FrameTypes : EnumDef where
  qualified := "Hytera.IpSiteConnectProtocol.FrameTypes"
  name := "FrameTypes"
  members := [("frame_type_data", 0), ("frame_type_voice_sync", 4369), ("frame_type_data_sync_or_csbk", 13107), ("frame_type_data_header", 26214), ("frame_type_voice", 48059), ("frame_type_sync", 61166)]

/-- okdmr/kaitai/hytera/ip_site_connect_protocol.py:32-36 -/
def IpSiteConnectProtocol.CallTypes : EnumDef where
  qualified := "Hytera.IpSiteConnectProtocol.CallTypes"
  name := "CallTypes"
  members := [("private_call", 0), ("group_call", 1), ("wakeup_call_2", 2), ("wakeup_call_c", 12)]

/-- okdmr/kaitai/hytera/ip_site_connect_protocol.py:38-53 -/
def IpSiteConnectProtocol.SlotTypes : EnumDef where
  qualified := "Hytera.IpSiteConnectProtocol.SlotTypes"
  name := "SlotTypes"
  members := [("slot_type_privacy_indicator", 0), ("slot_type_voice_lc_header", 4369), ("slot_type_terminator_with_lc", 8738), ("slot_type_csbk", 13107), ("slot_type_data_header", 17476), ("slot_type_rate_12_data", 21845), ("slot_type_rate_34_data", 26214), ("slot_type_data_a", 30583), ("slot_type_data_b", 34952), ("slot_type_data_c", 39321), ("slot_type_data_d", 43690), ("slot_type_data_e", 48059), ("slot_type_data_f", 52428), ("slot_type_wakeup_request", 56797), ("slot_type_sync", 61166)]

/-- okdmr/kaitai/hytera/ip_site_connect_protocol.py:55-57 -/
def IpSiteConnectProtocol.Timeslots : EnumDef where
  qualified := "Hytera.IpSiteConnectProtocol.Timeslots"
  name := "Timeslots"
  members := [("timeslot_1", 4369), ("timeslot_2", 8738)]

/-- okdmr/kaitai/hytera/ip_site_connect_protocol.py:15-137 -/
def IpSiteConnectProtocol : ClassDef where
  name := "Hytera.IpSiteConnectProtocol"
  methods := [("__init__", ⟨["self", "_io", "_parent", "_root"],
      [.setattr (.name "self") "_io" (.name "_io"),
       .setattr (.name "self") "_parent" (.name "_parent"),
       .setattr (.name "self") "_root" (.ifExp (.name "_root") (.name "_root") (.name "self")),
       .expr (.call (.attr (.name "self") "_read") [])]⟩),
    ("_read", ⟨["self"],
      [.setattr (.name "self") "source_port" (.call (.attr (.attr (.name "self") "_io") "read_bytes") [.int 2]),
       .setattr (.name "self") "fixed_header" (.call (.attr (.attr (.name "self") "_io") "read_bytes") [.int 2]),
       .if_ (.not (.cmp .eq (.attr (.name "self") "fixed_header") (.bytes [90, 90])))
        [.raise_ (.call (.attr (.global "kaitaistruct") "ValidationNotEqualError") [.bytes [90, 90], .attr (.name "self") "fixed_header", .attr (.name "self") "_io", .str "/seq/1"])]
        [],
       .setattr (.name "self") "sequence_number" (.call (.attr (.attr (.name "self") "_io") "read_u1") []),
       .setattr (.name "self") "reserved_3" (.call (.attr (.attr (.name "self") "_io") "read_bytes") [.int 3]),
       .setattr (.name "self") "packet_type" (.call (.attr (.global "KaitaiStream") "resolve_enum") [.enum "Hytera.IpSiteConnectProtocol.PacketTypes", .call (.attr (.attr (.name "self") "_io") "read_u1") []]),
       .setattr (.name "self") "reserved_7a" (.call (.attr (.attr (.name "self") "_io") "read_bytes") [.int 7]),
       .setattr (.name "self") "timeslot_raw" (.call (.attr (.global "KaitaiStream") "resolve_enum") [.enum "Hytera.IpSiteConnectProtocol.Timeslots", .call (.attr (.attr (.name "self") "_io") "read_u2be") []]),
       .setattr (.name "self") "slot_type" (.call (.attr (.global "KaitaiStream") "resolve_enum") [.enum "Hytera.IpSiteConnectProtocol.SlotTypes", .call (.attr (.attr (.name "self") "_io") "read_u2be") []]),
       .setattr (.name "self") "color_code_raw" (.call (.attr (.attr (.name "self") "_io") "read_u2le") []),
       .setattr (.name "self") "frame_type" (.call (.attr (.global "KaitaiStream") "resolve_enum") [.enum "Hytera.IpSiteConnectProtocol.FrameTypes", .call (.attr (.attr (.name "self") "_io") "read_u2be") []]),
       .setattr (.name "self") "reserved_2a" (.call (.attr (.attr (.name "self") "_io") "read_bytes") [.int 2]),
       .setattr (.name "self") "ipsc_payload" (.call (.attr (.attr (.name "self") "_io") "read_bytes") [.int 34]),
       .setattr (.name "self") "reserved_2b" (.call (.attr (.attr (.name "self") "_io") "read_bytes") [.int 2]),
       .setattr (.name "self") "call_type" (.call (.attr (.global "KaitaiStream") "resolve_enum") [.enum "Hytera.IpSiteConnectProtocol.CallTypes", .call (.attr (.attr (.name "self") "_io") "read_u1") []]),
       .setattr (.name "self") "destination_radio_id_raw" (.call (.attr (.attr (.name "self") "_io") "read_u4le") []),
       .setattr (.name "self") "source_radio_id_raw" (.call (.attr (.attr (.name "self") "_io") "read_u4le") []),
       .setattr (.name "self") "reserved_1b" (.call (.attr (.attr (.name "self") "_io") "read_u1") []),
       .if_ (.not (.call (.attr (.attr (.name "self") "_io") "is_eof") []))
        [.setattr (.name "self") "extra_data" (.call (.attr (.attr (.name "self") "_io") "read_bytes_full") [])]
        []]⟩)]
  properties := [("source_radio_id", ⟨["self"],
      [.if_ (.call (.global "hasattr") [.name "self", .str "_m_source_radio_id"])
        [.return_ (.attr (.name "self") "_m_source_radio_id")]
        [],
       .setattr (.name "self") "_m_source_radio_id" (.bin .shr (.attr (.name "self") "source_radio_id_raw") (.int 8)),
       .return_ (.call (.global "getattr") [.name "self", .str "_m_source_radio_id", .none])]⟩),
    ("destination_radio_id", ⟨["self"],
      [.if_ (.call (.global "hasattr") [.name "self", .str "_m_destination_radio_id"])
        [.return_ (.attr (.name "self") "_m_destination_radio_id")]
        [],
       .setattr (.name "self") "_m_destination_radio_id" (.bin .shr (.attr (.name "self") "destination_radio_id_raw") (.int 8)),
       .return_ (.call (.global "getattr") [.name "self", .str "_m_destination_radio_id", .none])]⟩),
    ("color_code", ⟨["self"],
      [.if_ (.call (.global "hasattr") [.name "self", .str "_m_color_code"])
        [.return_ (.attr (.name "self") "_m_color_code")]
        [],
       .setattr (.name "self") "_m_color_code" (.bin .band (.attr (.name "self") "color_code_raw") (.int 15)),
       .return_ (.call (.global "getattr") [.name "self", .str "_m_color_code", .none])]⟩),
    ("is_wakeup", ⟨["self"],
      [.if_ (.call (.global "hasattr") [.name "self", .str "_m_is_wakeup"])
        [.return_ (.attr (.name "self") "_m_is_wakeup")]
        [],
       .setattr (.name "self") "_m_is_wakeup" (.or (.or (.cmp .eq (.attr (.name "self") "call_type") (.attr (.enum "Hytera.IpSiteConnectProtocol.CallTypes") "wakeup_call_2")) (.cmp .eq (.attr (.name "self") "call_type") (.attr (.enum "Hytera.IpSiteConnectProtocol.CallTypes") "wakeup_call_c"))) (.cmp .eq (.attr (.name "self") "slot_type") (.attr (.enum "Hytera.IpSiteConnectProtocol.SlotTypes") "slot_type_wakeup_request"))),
       .return_ (.call (.global "getattr") [.name "self", .str "_m_is_wakeup", .none])]⟩)]

/-- okdmr/kaitai/hytera/ip_site_connect_protocol.py -/
def IpSiteConnectProtocol.file : File where
  classes := [IpSiteConnectProtocol]
  enums := [IpSiteConnectProtocol.PacketTypes,
    IpSiteConnectProtocol.FrameTypes,
    IpSiteConnectProtocol.CallTypes,
    IpSiteConnectProtocol.SlotTypes,
    IpSiteConnectProtocol.Timeslots]

end Dmr.Py.Source.Hytera
