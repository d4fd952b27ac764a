import Verif.Py.Syntax
/-
Generated by tools/mkpyast.py: okdmr/kaitai/hytera/hytera_dmr_application_protocol.py as data.
-/

set_option autoImplicit false

namespace Dmr.Py.Source.Hytera

/-- okdmr/kaitai/hytera/hytera_dmr_application_protocol.py:25-32 -/
def HyteraDmrApplicationProtocol.MessageHeaderTypes : EnumDef where
  qualified := "Hytera.HyteraDmrApplicationProtocol.MessageHeaderTypes"
  name := "MessageHeaderTypes"
  members := [("radio_control_protocol", 2), ("location_protocol", 8), ("text_message_protocol", 9), ("radio_registration", 17), ("telemetry_protocol", 18), ("data_transmit_protocol", 19), ("data_delivery_states", 20)]

/-- okdmr/kaitai/hytera/hytera_dmr_application_protocol.py:79-87 -/
def HyteraDmrApplicationProtocol.UndefinedProtocol : ClassDef where
  name := "Hytera.HyteraDmrApplicationProtocol.UndefinedProtocol"
  methods := [("__init__", ⟨["self", "_io", "_parent", "_root"],
      [.setattr (.name "self") "_io" (.name "_io"),
       .setattr (.name "self") "_parent" (.name "_parent"),
       .setattr (.name "self") "_root" (.ifExp (.name "_root") (.name "_root") (.name "self")),
       .expr (.call (.attr (.name "self") "_read") [])]⟩),
    ("_read", ⟨["self"],
      [.setattr (.name "self") "data" (.call (.attr (.attr (.name "self") "_io") "read_bytes_full") [])]⟩)]
  properties := []

/-- okdmr/kaitai/hytera/hytera_dmr_application_protocol.py:23-87 -/
def HyteraDmrApplicationProtocol : ClassDef where
  name := "Hytera.HyteraDmrApplicationProtocol"
  methods := [("__init__", ⟨["self", "_io", "_parent", "_root"],
      [.setattr (.name "self") "_io" (.name "_io"),
       .setattr (.name "self") "_parent" (.name "_parent"),
       .setattr (.name "self") "_root" (.ifExp (.name "_root") (.name "_root") (.name "self")),
       .expr (.call (.attr (.name "self") "_read") [])]⟩),
    ("_read", ⟨["self"],
      [.setattr (.name "self") "is_reliable_message" (.cmp .ne (.call (.attr (.attr (.name "self") "_io") "read_bits_int_be") [.int 1]) (.int 0)),
       .setattr (.name "self") "message_header" (.call (.attr (.global "KaitaiStream") "resolve_enum") [.enum "Hytera.HyteraDmrApplicationProtocol.MessageHeaderTypes", .call (.attr (.attr (.name "self") "_io") "read_bits_int_be") [.int 7]]),
       .expr (.call (.attr (.attr (.name "self") "_io") "align_to_byte") []),
       .assign "_on" (.attr (.name "self") "message_header"),
       .if_ (.cmp .eq (.name "_on") (.attr (.enum "Hytera.HyteraDmrApplicationProtocol.MessageHeaderTypes") "radio_registration"))
        [.setattr (.name "self") "data" (.call (.cls "Hytera.RadioRegistrationService") [.attr (.name "self") "_io"])]
        [.if_ (.cmp .eq (.name "_on") (.attr (.enum "Hytera.HyteraDmrApplicationProtocol.MessageHeaderTypes") "telemetry_protocol"))
          [.setattr (.name "self") "data" (.call (.cls "Hytera.TelemetryProtocol") [.attr (.name "self") "_io"])]
          [.if_ (.cmp .eq (.name "_on") (.attr (.enum "Hytera.HyteraDmrApplicationProtocol.MessageHeaderTypes") "radio_control_protocol"))
            [.setattr (.name "self") "data" (.call (.cls "Hytera.RadioControlProtocol") [.attr (.name "self") "_io"])]
            [.if_ (.cmp .eq (.name "_on") (.attr (.enum "Hytera.HyteraDmrApplicationProtocol.MessageHeaderTypes") "text_message_protocol"))
              [.setattr (.name "self") "data" (.call (.cls "Hytera.TextMessageProtocol") [.attr (.name "self") "_io"])]
              [.if_ (.cmp .eq (.name "_on") (.attr (.enum "Hytera.HyteraDmrApplicationProtocol.MessageHeaderTypes") "data_delivery_states"))
                [.setattr (.name "self") "data" (.call (.cls "Hytera.DataDeliveryStates") [.attr (.name "self") "_io"])]
                [.if_ (.cmp .eq (.name "_on") (.attr (.enum "Hytera.HyteraDmrApplicationProtocol.MessageHeaderTypes") "location_protocol"))
                  [.setattr (.name "self") "data" (.call (.cls "Hytera.LocationProtocol") [.attr (.name "self") "_io"])]
                  [.if_ (.cmp .eq (.name "_on") (.attr (.enum "Hytera.HyteraDmrApplicationProtocol.MessageHeaderTypes") "data_transmit_protocol"))
                    [.setattr (.name "self") "data" (.call (.cls "Hytera.DataTransmitProtocol") [.attr (.name "self") "_io"])]
                    []]]]]]],
       .setattr (.name "self") "checksum" (.call (.attr (.attr (.name "self") "_io") "read_u1") []),
       .setattr (.name "self") "message_footer" (.call (.attr (.attr (.name "self") "_io") "read_bytes") [.int 1]),
       .if_ (.not (.cmp .eq (.attr (.name "self") "message_footer") (.bytes [3])))
        [.raise_ (.call (.attr (.global "kaitaistruct") "ValidationNotEqualError") [.bytes [3], .attr (.name "self") "message_footer", .attr (.name "self") "_io", .str "/seq/4"])]
        []]⟩)]
  properties := []

/-- okdmr/kaitai/hytera/hytera_dmr_application_protocol.py -/
def HyteraDmrApplicationProtocol.file : File where
  classes := [HyteraDmrApplicationProtocol.UndefinedProtocol,
    HyteraDmrApplicationProtocol]
  enums := [HyteraDmrApplicationProtocol.MessageHeaderTypes]

end Dmr.Py.Source.Hytera
