import Verif.Py.Syntax
/-
Generated by tools/mkpyast.py: okdmr/kaitai/hytera/hytera_radio_network_protocol.py as data.
-/

set_option autoImplicit false

namespace Dmr.Py.Source.Hytera

/-- okdmr/kaitai/hytera/hytera_radio_network_protocol.py:19-26 -/
def HyteraRadioNetworkProtocol.Opcodes : EnumDef where
  qualified := "Hytera.HyteraRadioNetworkProtocol.Opcodes"
  name := "Opcodes"
  members := [("data", 0), ("data_ack", 16), ("close_ack", 250), ("close", 251), ("reject", 252), ("accept", 253), ("connect", 254)]

/-- okdmr/kaitai/hytera/hytera_radio_network_protocol.py:17-53 -/
def HyteraRadioNetworkProtocol : ClassDef where
  name := "Hytera.HyteraRadioNetworkProtocol"
  methods := [("__init__", ⟨["self", "_io", "_parent", "_root"],
      [.setattr (.name "self") "_io" (.name "_io"),
       .setattr (.name "self") "_parent" (.name "_parent"),
       .setattr (.name "self") "_root" (.ifExp (.name "_root") (.name "_root") (.name "self")),
       .expr (.call (.attr (.name "self") "_read") [])]⟩),
    ("_read", ⟨["self"],
      [.setattr (.name "self") "header_identifier" (.call (.attr (.attr (.name "self") "_io") "read_bytes") [.int 1]),
       .if_ (.not (.cmp .eq (.attr (.name "self") "header_identifier") (.bytes [126])))
        [.raise_ (.call (.attr (.global "kaitaistruct") "ValidationNotEqualError") [.bytes [126], .attr (.name "self") "header_identifier", .attr (.name "self") "_io", .str "/seq/0"])]
        [],
       .setattr (.name "self") "version" (.call (.attr (.attr (.name "self") "_io") "read_u1") []),
       .setattr (.name "self") "block" (.call (.attr (.attr (.name "self") "_io") "read_u1") []),
       .setattr (.name "self") "opcode" (.call (.attr (.global "KaitaiStream") "resolve_enum") [.enum "Hytera.HyteraRadioNetworkProtocol.Opcodes", .call (.attr (.attr (.name "self") "_io") "read_u1") []]),
       .setattr (.name "self") "source_id" (.call (.attr (.attr (.name "self") "_io") "read_u1") []),
       .setattr (.name "self") "destination_id" (.call (.attr (.attr (.name "self") "_io") "read_u1") []),
       .setattr (.name "self") "packet_number" (.call (.attr (.attr (.name "self") "_io") "read_u2be") []),
       .setattr (.name "self") "hrnp_packet_length" (.call (.attr (.attr (.name "self") "_io") "read_u2be") []),
       .setattr (.name "self") "checksum" (.call (.attr (.attr (.name "self") "_io") "read_u2be") []),
       .if_ (.cmp .eq (.attr (.name "self") "opcode") (.attr (.enum "Hytera.HyteraRadioNetworkProtocol.Opcodes") "data"))
        [.setattr (.name "self") "data" (.call (.cls "Hytera.HyteraDmrApplicationProtocol") [.attr (.name "self") "_io"])]
        []]⟩)]
  properties := []

/-- okdmr/kaitai/hytera/hytera_radio_network_protocol.py -/
def HyteraRadioNetworkProtocol.file : File where
  classes := [HyteraRadioNetworkProtocol]
  enums := [HyteraRadioNetworkProtocol.Opcodes]

end Dmr.Py.Source.Hytera
