import Verif.Py.Syntax
/-
Generated by tools/mkpyast.py: okdmr/kaitai/hytera/data_delivery_states.py as data.
-/

set_option autoImplicit false

namespace Dmr.Py.Source.Hytera

/-- okdmr/kaitai/hytera/data_delivery_states.py:19-23 -/
def DataDeliveryStates.StateTypes : EnumDef where
  qualified := "Hytera.DataDeliveryStates.StateTypes"
  name := "StateTypes"
  members := [("location_protocol_state", 8), ("radio_registration_service_state", 17), ("telemetry_protocol_state", 18), ("data_transmit_protocol_state", 19)]

/-- okdmr/kaitai/hytera/data_delivery_states.py:25-34 -/
def DataDeliveryStates.Results : EnumDef where
  qualified := "Hytera.DataDeliveryStates.Results"
  name := "Results"
  members := [("ok", 0), ("fail", 1), ("limited_timeout", 4), ("no_ack", 5), ("error_ack", 6), ("repeater_wakeup_fail", 7), ("tx_interrupted", 8), ("tx_deny", 9), ("invalid_params", 10)]

/-- okdmr/kaitai/hytera/data_delivery_states.py:17-52 -/
def DataDeliveryStates : ClassDef where
  name := "Hytera.DataDeliveryStates"
  methods := [("__init__", ⟨["self", "_io", "_parent", "_root"],
      [.setattr (.name "self") "_io" (.name "_io"),
       .setattr (.name "self") "_parent" (.name "_parent"),
       .setattr (.name "self") "_root" (.ifExp (.name "_root") (.name "_root") (.name "self")),
       .expr (.call (.attr (.name "self") "_read") [])]⟩),
    ("_read", ⟨["self"],
      [.setattr (.name "self") "reserved" (.call (.attr (.attr (.name "self") "_io") "read_bytes") [.int 1]),
       .setattr (.name "self") "state_type" (.call (.attr (.global "KaitaiStream") "resolve_enum") [.enum "Hytera.DataDeliveryStates.StateTypes", .call (.attr (.attr (.name "self") "_io") "read_u1") []]),
       .setattr (.name "self") "message_length" (.call (.attr (.attr (.name "self") "_io") "read_u2be") []),
       .setattr (.name "self") "radio_ip" (.call (.cls "Hytera.RadioIp") [.attr (.name "self") "_io"]),
       .setattr (.name "self") "protocol_opcode" (.call (.attr (.attr (.name "self") "_io") "read_u2be") []),
       .setattr (.name "self") "result" (.call (.attr (.global "KaitaiStream") "resolve_enum") [.enum "Hytera.DataDeliveryStates.Results", .call (.attr (.attr (.name "self") "_io") "read_u1") []])]⟩)]
  properties := []

/-- okdmr/kaitai/hytera/data_delivery_states.py -/
def DataDeliveryStates.file : File where
  classes := [DataDeliveryStates]
  enums := [DataDeliveryStates.StateTypes,
    DataDeliveryStates.Results]

end Dmr.Py.Source.Hytera
