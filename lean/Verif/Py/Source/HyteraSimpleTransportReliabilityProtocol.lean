import Verif.Py.Syntax
/-
Generated by tools/mkpyast.py: okdmr/kaitai/hytera/hytera_simple_transport_reliability_protocol.py as data.
-/

set_option autoImplicit false

namespace Dmr.Py.Source.Hytera

/-- okdmr/kaitai/hytera/hytera_simple_transport_reliability_protocol.py:19-22 -/
def HyteraSimpleTransportReliabilityProtocol.OptionCommands : EnumDef where
  qualified := "Hytera.HyteraSimpleTransportReliabilityProtocol.OptionCommands"
  name := "OptionCommands"
  members := [("realtime", 1), ("device_id", 3), ("channel_id", 4)]

/-- okdmr/kaitai/hytera/hytera_simple_transport_reliability_protocol.py:81-96 -/
def HyteraSimpleTransportReliabilityProtocol.Option : ClassDef where
  name := "Hytera.HyteraSimpleTransportReliabilityProtocol.Option"
  methods := [("__init__", ⟨["self", "_io", "_parent", "_root"],
      [.setattr (.name "self") "_io" (.name "_io"),
       .setattr (.name "self") "_parent" (.name "_parent"),
       .setattr (.name "self") "_root" (.ifExp (.name "_root") (.name "_root") (.name "self")),
       .expr (.call (.attr (.name "self") "_read") [])]⟩),
    ("_read", ⟨["self"],
      [.setattr (.name "self") "expect_more_options" (.cmp .ne (.call (.attr (.attr (.name "self") "_io") "read_bits_int_be") [.int 1]) (.int 0)),
       .setattr (.name "self") "command" (.call (.attr (.global "KaitaiStream") "resolve_enum") [.enum "Hytera.HyteraSimpleTransportReliabilityProtocol.OptionCommands", .call (.attr (.attr (.name "self") "_io") "read_bits_int_be") [.int 7]]),
       .expr (.call (.attr (.attr (.name "self") "_io") "align_to_byte") []),
       .setattr (.name "self") "len_option_payload" (.call (.attr (.attr (.name "self") "_io") "read_u1") []),
       .setattr (.name "self") "option_payload" (.call (.attr (.attr (.name "self") "_io") "read_bytes") [.attr (.name "self") "len_option_payload"])]⟩)]
  properties := []

/-- okdmr/kaitai/hytera/hytera_simple_transport_reliability_protocol.py:17-96 -/
def HyteraSimpleTransportReliabilityProtocol : ClassDef where
  name := "Hytera.HyteraSimpleTransportReliabilityProtocol"
  methods := [("__init__", ⟨["self", "_io", "_parent", "_root"],
      [.setattr (.name "self") "_io" (.name "_io"),
       .setattr (.name "self") "_parent" (.name "_parent"),
       .setattr (.name "self") "_root" (.ifExp (.name "_root") (.name "_root") (.name "self")),
       .expr (.call (.attr (.name "self") "_read") [])]⟩),
    ("_read", ⟨["self"],
      [.setattr (.name "self") "header" (.call (.attr (.attr (.name "self") "_io") "read_bytes") [.int 2]),
       .if_ (.not (.cmp .eq (.attr (.name "self") "header") (.bytes [50, 66])))
        [.raise_ (.call (.attr (.global "kaitaistruct") "ValidationNotEqualError") [.bytes [50, 66], .attr (.name "self") "header", .attr (.name "self") "_io", .str "/seq/0"])]
        [],
       .setattr (.name "self") "version" (.call (.attr (.attr (.name "self") "_io") "read_u1") []),
       .setattr (.name "self") "reserved" (.call (.attr (.attr (.name "self") "_io") "read_bits_int_be") [.int 2]),
       .setattr (.name "self") "has_option" (.cmp .ne (.call (.attr (.attr (.name "self") "_io") "read_bits_int_be") [.int 1]) (.int 0)),
       .setattr (.name "self") "is_reject" (.cmp .ne (.call (.attr (.attr (.name "self") "_io") "read_bits_int_be") [.int 1]) (.int 0)),
       .setattr (.name "self") "is_close" (.cmp .ne (.call (.attr (.attr (.name "self") "_io") "read_bits_int_be") [.int 1]) (.int 0)),
       .setattr (.name "self") "is_connect" (.cmp .ne (.call (.attr (.attr (.name "self") "_io") "read_bits_int_be") [.int 1]) (.int 0)),
       .setattr (.name "self") "is_heartbeat" (.cmp .ne (.call (.attr (.attr (.name "self") "_io") "read_bits_int_be") [.int 1]) (.int 0)),
       .setattr (.name "self") "is_ack" (.cmp .ne (.call (.attr (.attr (.name "self") "_io") "read_bits_int_be") [.int 1]) (.int 0)),
       .expr (.call (.attr (.attr (.name "self") "_io") "align_to_byte") []),
       .setattr (.name "self") "sequence_number" (.call (.attr (.attr (.name "self") "_io") "read_u2be") []),
       .if_ (.and (.and (.not (.call (.attr (.attr (.name "self") "_io") "is_eof") [])) (.not (.attr (.name "self") "is_heartbeat"))) (.attr (.name "self") "has_option"))
        [.setattr (.name "self") "options" (.emptyList),
         .assign "i" (.int 0),
         .while_ (.bool true)
          [.assign "_" (.call (.cls "Hytera.HyteraSimpleTransportReliabilityProtocol.Option") [.attr (.name "self") "_io", .name "self", .attr (.name "self") "_root"]),
           .expr (.call (.attr (.attr (.name "self") "options") "append") [.name "_"]),
           .if_ (.not (.attr (.name "_") "expect_more_options"))
            [.break_]
            [],
           .assign "i" (.bin .add (.name "i") (.int 1))]]
        [],
       .if_ (.and (.and (.and (.not (.call (.attr (.attr (.name "self") "_io") "is_eof") [])) (.not (.attr (.name "self") "is_reject"))) (.not (.attr (.name "self") "is_close"))) (.not (.attr (.name "self") "is_connect")))
        [.setattr (.name "self") "data" (.emptyList),
         .assign "i" (.int 0),
         .while_ (.not (.call (.attr (.attr (.name "self") "_io") "is_eof") []))
          [.expr (.call (.attr (.attr (.name "self") "data") "append") [.call (.cls "Hytera.HyteraDmrApplicationProtocol") [.attr (.name "self") "_io"]]),
           .assign "i" (.bin .add (.name "i") (.int 1))]]
        [],
       .if_ (.not (.call (.attr (.attr (.name "self") "_io") "is_eof") []))
        [.setattr (.name "self") "extra_data" (.call (.attr (.attr (.name "self") "_io") "read_bytes_full") [])]
        []]⟩)]
  properties := []

/-- okdmr/kaitai/hytera/hytera_simple_transport_reliability_protocol.py -/
def HyteraSimpleTransportReliabilityProtocol.file : File where
  classes := [HyteraSimpleTransportReliabilityProtocol.Option,
    HyteraSimpleTransportReliabilityProtocol]
  enums := [HyteraSimpleTransportReliabilityProtocol.OptionCommands]

end Dmr.Py.Source.Hytera
