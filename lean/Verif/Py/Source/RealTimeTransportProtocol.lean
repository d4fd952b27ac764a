import Verif.Py.Syntax
/-
Generated by tools/mkpyast.py: okdmr/kaitai/hytera/real_time_transport_protocol.py as data.
-/

set_option autoImplicit false

namespace Dmr.Py.Source.Hytera

/-- okdmr/kaitai/hytera/real_time_transport_protocol.py:20-22 -/
def RealTimeTransportProtocol.RtpPayloadTypes : EnumDef where
  qualified := "Hytera.RealTimeTransportProtocol.RtpPayloadTypes"
  name := "RtpPayloadTypes"
  members := [("mu_law", 0), ("a_law", 8)]

/-- okdmr/kaitai/hytera/real_time_transport_protocol.py:24-27 -/
def RealTimeTransportProtocol.CallTypes : EnumDef where
  qualified := "Hytera.RealTimeTransportProtocol.CallTypes"
  name := "CallTypes"
  members := [("private_call", 0), ("group_call", 1), ("all_call", 2)]

/-- okdmr/kaitai/hytera/real_time_transport_protocol.py:50-74 -/
def RealTimeTransportProtocol.FixedHeader : ClassDef where
  name := "Hytera.RealTimeTransportProtocol.FixedHeader"
  methods := [("__init__", ⟨["self", "_io", "_parent", "_root"],
      [.setattr (.name "self") "_io" (.name "_io"),
       .setattr (.name "self") "_parent" (.name "_parent"),
       .setattr (.name "self") "_root" (.ifExp (.name "_root") (.name "_root") (.name "self")),
       .expr (.call (.attr (.name "self") "_read") [])]⟩),
    ("_read", ⟨["self"],
      [.setattr (.name "self") "version" (.call (.attr (.attr (.name "self") "_io") "read_bits_int_be") [.int 2]),
       .if_ (.not (.cmp .eq (.attr (.name "self") "version") (.int 2)))
        [.raise_ (.call (.attr (.global "kaitaistruct") "ValidationNotEqualError") [.int 2, .attr (.name "self") "version", .attr (.name "self") "_io", .str "/types/fixed_header/seq/0"])]
        [],
       .setattr (.name "self") "padding" (.cmp .ne (.call (.attr (.attr (.name "self") "_io") "read_bits_int_be") [.int 1]) (.int 0)),
       .setattr (.name "self") "extension" (.cmp .ne (.call (.attr (.attr (.name "self") "_io") "read_bits_int_be") [.int 1]) (.int 0)),
       .setattr (.name "self") "num_csrc" (.call (.attr (.attr (.name "self") "_io") "read_bits_int_be") [.int 4]),
       .setattr (.name "self") "marker" (.cmp .ne (.call (.attr (.attr (.name "self") "_io") "read_bits_int_be") [.int 1]) (.int 0)),
       .setattr (.name "self") "payload_type" (.call (.attr (.attr (.name "self") "_io") "read_bits_int_be") [.int 7]),
       .expr (.call (.attr (.attr (.name "self") "_io") "align_to_byte") []),
       .setattr (.name "self") "sequence_number" (.call (.attr (.attr (.name "self") "_io") "read_u2be") []),
       .setattr (.name "self") "timestamp" (.call (.attr (.attr (.name "self") "_io") "read_u4be") []),
       .setattr (.name "self") "ssrc" (.call (.attr (.attr (.name "self") "_io") "read_u4be") []),
       .setattr (.name "self") "csrc" (.emptyList),
       .for_ "i" (.call (.global "range") [.attr (.name "self") "num_csrc"])
        [.expr (.call (.attr (.attr (.name "self") "csrc") "append") [.call (.attr (.attr (.name "self") "_io") "read_u4be") []])]]⟩)]
  properties := []

/-- okdmr/kaitai/hytera/real_time_transport_protocol.py:76-94 -/
def RealTimeTransportProtocol.HeaderExtension : ClassDef where
  name := "Hytera.RealTimeTransportProtocol.HeaderExtension"
  methods := [("__init__", ⟨["self", "_io", "_parent", "_root"],
      [.setattr (.name "self") "_io" (.name "_io"),
       .setattr (.name "self") "_parent" (.name "_parent"),
       .setattr (.name "self") "_root" (.ifExp (.name "_root") (.name "_root") (.name "self")),
       .expr (.call (.attr (.name "self") "_read") [])]⟩),
    ("_read", ⟨["self"],
      [.setattr (.name "self") "header_identifier" (.call (.attr (.attr (.name "self") "_io") "read_u2be") []),
       .setattr (.name "self") "length" (.call (.attr (.attr (.name "self") "_io") "read_u2be") []),
       .setattr (.name "self") "slot" (.call (.attr (.attr (.name "self") "_io") "read_bits_int_be") [.int 7]),
       .setattr (.name "self") "last_flag" (.cmp .ne (.call (.attr (.attr (.name "self") "_io") "read_bits_int_be") [.int 1]) (.int 0)),
       .expr (.call (.attr (.attr (.name "self") "_io") "align_to_byte") []),
       .setattr (.name "self") "source_id" (.call (.cls "Hytera.RadioId") [.attr (.name "self") "_io"]),
       .setattr (.name "self") "destination_id" (.call (.cls "Hytera.RadioId") [.attr (.name "self") "_io"]),
       .setattr (.name "self") "call_type" (.call (.attr (.global "KaitaiStream") "resolve_enum") [.enum "Hytera.RealTimeTransportProtocol.CallTypes", .call (.attr (.attr (.name "self") "_io") "read_u1") []]),
       .setattr (.name "self") "reserved" (.call (.attr (.attr (.name "self") "_io") "read_bytes") [.int 4])]⟩)]
  properties := []

/-- okdmr/kaitai/hytera/real_time_transport_protocol.py:17-117 -/
def RealTimeTransportProtocol : ClassDef where
  name := "Hytera.RealTimeTransportProtocol"
  methods := [("__init__", ⟨["self", "_io", "_parent", "_root"],
      [.setattr (.name "self") "_io" (.name "_io"),
       .setattr (.name "self") "_parent" (.name "_parent"),
       .setattr (.name "self") "_root" (.ifExp (.name "_root") (.name "_root") (.name "self")),
       .expr (.call (.attr (.name "self") "_read") [])]⟩),
    ("_read", ⟨["self"],
      [.setattr (.name "self") "fixed_header" (.call (.cls "Hytera.RealTimeTransportProtocol.FixedHeader") [.attr (.name "self") "_io", .name "self", .attr (.name "self") "_root"]),
       .if_ (.attr (.attr (.name "self") "fixed_header") "extension")
        [.setattr (.name "self") "header_extension" (.call (.cls "Hytera.RealTimeTransportProtocol.HeaderExtension") [.attr (.name "self") "_io", .name "self", .attr (.name "self") "_root"])]
        [],
       .setattr (.name "self") "audio_data" (.call (.attr (.attr (.name "self") "_io") "read_bytes") [.bin .sub (.bin .sub (.call (.attr (.attr (.name "self") "_io") "size") []) (.call (.attr (.attr (.name "self") "_io") "pos") [])) (.attr (.name "self") "len_padding")]),
       .if_ (.attr (.attr (.name "self") "fixed_header") "padding")
        [.setattr (.name "self") "padding" (.call (.attr (.attr (.name "self") "_io") "read_bytes") [.attr (.name "self") "len_padding"])]
        []]⟩)]
  properties := [("len_padding_if_exists", ⟨["self"],
      [.if_ (.call (.global "hasattr") [.name "self", .str "_m_len_padding_if_exists"])
        [.return_ (.attr (.name "self") "_m_len_padding_if_exists")]
        [],
       .if_ (.attr (.attr (.name "self") "fixed_header") "padding")
        [.assign "_pos" (.call (.attr (.attr (.name "self") "_io") "pos") []),
         .expr (.call (.attr (.attr (.name "self") "_io") "seek") [.bin .sub (.call (.attr (.attr (.name "self") "_io") "size") []) (.int 1)]),
         .setattr (.name "self") "_m_len_padding_if_exists" (.call (.attr (.attr (.name "self") "_io") "read_u1") []),
         .expr (.call (.attr (.attr (.name "self") "_io") "seek") [.name "_pos"])]
        [],
       .return_ (.call (.global "getattr") [.name "self", .str "_m_len_padding_if_exists", .none])]⟩),
    ("len_padding", ⟨["self"],
      [.if_ (.call (.global "hasattr") [.name "self", .str "_m_len_padding"])
        [.return_ (.attr (.name "self") "_m_len_padding")]
        [],
       .setattr (.name "self") "_m_len_padding" (.ifExp (.attr (.attr (.name "self") "fixed_header") "padding") (.attr (.name "self") "len_padding_if_exists") (.int 0)),
       .return_ (.call (.global "getattr") [.name "self", .str "_m_len_padding", .none])]⟩)]

/-- okdmr/kaitai/hytera/real_time_transport_protocol.py -/
def RealTimeTransportProtocol.file : File where
  classes := [RealTimeTransportProtocol.FixedHeader,
    RealTimeTransportProtocol.HeaderExtension,
    RealTimeTransportProtocol]
  enums := [RealTimeTransportProtocol.RtpPayloadTypes,
    RealTimeTransportProtocol.CallTypes]

end Dmr.Py.Source.Hytera
