import Verif.Py.Syntax
/-
Generated by tools/mkpyast.py: okdmr/kaitai/hytera/radio_control_protocol.py as data.
-/

set_option autoImplicit false

namespace Dmr.Py.Source.Hytera

/-- okdmr/kaitai/hytera/radio_control_protocol.py:17-77 -/
def RadioControlProtocol.ServiceTypes : EnumDef where
  qualified := "Hytera.RadioControlProtocol.ServiceTypes"
  name := "ServiceTypes"
  members := [("radio_identification_request", 4), ("button_and_keyboard_operation_request", 65), ("internal_external_mic_enable_disable_request", 67), ("internal_external_mic_gain_check_control_request", 68), ("internal_external_speaker_enable_disable_request", 69), ("volume_check_control_request", 70), ("radio_configure_over_air_request", 192), ("zone_and_channel_operation_request", 196), ("radio_connect_login_request", 202), ("radio_connect_logout_request", 203), ("channel_status_or_param_check_request", 231), ("function_status_check_request", 237), ("function_enable_disable_request", 238), ("channel_alias_request", 305), ("radio_message_query_request", 513), ("channel_number_of_zone_request", 1104), ("update_authentication_key_request", 1105), ("radio_id_and_radio_ip_query_request", 1106), ("radio_check", 2099), ("remote_monitor", 2100), ("allert_call", 2101), ("call_request", 2113), ("remove_radio_request", 2114), ("delete_subject_line_message_request", 2118), ("radio_disable", 2121), ("radio_enable", 2122), ("radio_status_configure_request", 4295), ("broadcast_status_configuration_request", 4297), ("button_and_keyboard_operation_reply", 32833), ("internal_external_mic_enable_disable_reply", 32835), ("internal_external_mic_gain_check_control_reply", 32836), ("internal_external_speaker_enable_disable_reply", 32837), ("volume_check_control_reply", 32838), ("radio_configure_over_air_reply", 32960), ("zone_and_channel_operation_reply", 32964), ("radio_status_configure_reply", 32967), ("broadcast_status_configuration_reply", 32969), ("radio_connect_login_reply", 32970), ("radio_connect_logout_reply", 32971), ("channel_status_or_param_check_reply", 32999), ("function_status_check_reply", 33005), ("function_enable_disable_reply", 33006), ("channel_alias_reply", 33073), ("radio_message_query_reply", 33281), ("radio_identification_reply", 33492), ("channel_number_of_zone_reply", 33872), ("update_authentication_key_reply", 33873), ("radio_id_and_radio_ip_query_reply", 33874), ("radio_check_ack", 34867), ("remote_monitor_ack", 34868), ("alert_call_ack", 34869), ("call_reply", 34881), ("remove_radio_reply", 34882), ("delete_subject_line_message_reply", 34886), ("radio_disable_ack", 34889), ("radio_enable_ack", 34890), ("radio_status_report", 45256), ("broadcast_transmit_status", 47171), ("repeater_broadcast_transmit_status", 47173), ("broadcast_receive_status", 47428)]

/-- okdmr/kaitai/hytera/radio_control_protocol.py:79-88 -/
def RadioControlProtocol.CallTypes : EnumDef where
  qualified := "Hytera.RadioControlProtocol.CallTypes"
  name := "CallTypes"
  members := [("private_call", 0), ("group_call", 1), ("all_call", 2), ("emergency_group_call", 3), ("remote_monitor_call", 4), ("reserved", 5), ("priority_private_call", 6), ("priority_group_call", 7), ("priority_all_call", 8)]

/-- okdmr/kaitai/hytera/radio_control_protocol.py:90-92 -/
def RadioControlProtocol.ReplyResults : EnumDef where
  qualified := "Hytera.RadioControlProtocol.ReplyResults"
  name := "ReplyResults"
  members := [("success", 0), ("failure", 1)]

/-- okdmr/kaitai/hytera/radio_control_protocol.py:139-149 -/
def RadioControlProtocol.BroadcastStatusConfigurationReply : ClassDef where
  name := "Hytera.RadioControlProtocol.BroadcastStatusConfigurationReply"
  methods := [("__init__", ⟨["self", "_io", "_parent", "_root"],
      [.setattr (.name "self") "_io" (.name "_io"),
       .setattr (.name "self") "_parent" (.name "_parent"),
       .setattr (.name "self") "_root" (.ifExp (.name "_root") (.name "_root") (.name "self")),
       .expr (.call (.attr (.name "self") "_read") [])]⟩),
    ("_read", ⟨["self"],
      [.setattr (.name "self") "result" (.call (.attr (.global "KaitaiStream") "resolve_enum") [.enum "Hytera.RadioControlProtocol.ReplyResults", .call (.attr (.attr (.name "self") "_io") "read_u1") []])]⟩)]
  properties := []

/-- okdmr/kaitai/hytera/radio_control_protocol.py:151-160 -/
def RadioControlProtocol.BroadcastConfiguration : ClassDef where
  name := "Hytera.RadioControlProtocol.BroadcastConfiguration"
  methods := [("__init__", ⟨["self", "_io", "_parent", "_root"],
      [.setattr (.name "self") "_io" (.name "_io"),
       .setattr (.name "self") "_parent" (.name "_parent"),
       .setattr (.name "self") "_root" (.ifExp (.name "_root") (.name "_root") (.name "self")),
       .expr (.call (.attr (.name "self") "_read") [])]⟩),
    ("_read", ⟨["self"],
      [.setattr (.name "self") "config_operation" (.call (.attr (.attr (.name "self") "_io") "read_u1") []),
       .setattr (.name "self") "config_target" (.call (.attr (.attr (.name "self") "_io") "read_u1") [])]⟩)]
  properties := []

/-- okdmr/kaitai/hytera/radio_control_protocol.py:162-179 -/
def RadioControlProtocol.BroadcastStatusConfigurationRequest : ClassDef where
  name := "Hytera.RadioControlProtocol.BroadcastStatusConfigurationRequest"
  methods := [("__init__", ⟨["self", "_io", "_parent", "_root"],
      [.setattr (.name "self") "_io" (.name "_io"),
       .setattr (.name "self") "_parent" (.name "_parent"),
       .setattr (.name "self") "_root" (.ifExp (.name "_root") (.name "_root") (.name "self")),
       .expr (.call (.attr (.name "self") "_read") [])]⟩),
    ("_read", ⟨["self"],
      [.setattr (.name "self") "num_broadcast_configuration" (.call (.attr (.attr (.name "self") "_io") "read_u1") []),
       .setattr (.name "self") "broadcast_configuration" (.emptyList),
       .for_ "i" (.call (.global "range") [.attr (.name "self") "num_broadcast_configuration"])
        [.expr (.call (.attr (.attr (.name "self") "broadcast_configuration") "append") [.call (.cls "Hytera.RadioControlProtocol.BroadcastConfiguration") [.attr (.name "self") "_io", .name "self", .attr (.name "self") "_root"]])]]⟩)]
  properties := []

/-- okdmr/kaitai/hytera/radio_control_protocol.py:181-196 -/
def RadioControlProtocol.RadioIdentificationReply : ClassDef where
  name := "Hytera.RadioControlProtocol.RadioIdentificationReply"
  methods := [("__init__", ⟨["self", "_io", "_parent", "_root"],
      [.setattr (.name "self") "_io" (.name "_io"),
       .setattr (.name "self") "_parent" (.name "_parent"),
       .setattr (.name "self") "_root" (.ifExp (.name "_root") (.name "_root") (.name "self")),
       .expr (.call (.attr (.name "self") "_read") [])]⟩),
    ("_read", ⟨["self"],
      [.if_ (.cmp .ge (.attr (.attr (.name "self") "_parent") "message_length") (.int 6))
        [.setattr (.name "self") "header" (.call (.attr (.attr (.name "self") "_io") "read_bytes") [.int 6])]
        [],
       .if_ (.cmp .ge (.attr (.attr (.name "self") "_parent") "message_length") (.int 198))
        [.setattr (.name "self") "text" (.call (.attr (.call (.attr (.attr (.name "self") "_io") "read_bytes") [.int 192]) "decode") [.str "utf-16-be"])]
        [],
       .if_ (.cmp .ge (.attr (.attr (.name "self") "_parent") "message_length") (.int 206))
        [.setattr (.name "self") "footer" (.call (.attr (.attr (.name "self") "_io") "read_bytes") [.int 8])]
        []]⟩)]
  properties := []

/-- okdmr/kaitai/hytera/radio_control_protocol.py:198-206 -/
def RadioControlProtocol.GenericData : ClassDef where
  name := "Hytera.RadioControlProtocol.GenericData"
  methods := [("__init__", ⟨["self", "_io", "_parent", "_root"],
      [.setattr (.name "self") "_io" (.name "_io"),
       .setattr (.name "self") "_parent" (.name "_parent"),
       .setattr (.name "self") "_root" (.ifExp (.name "_root") (.name "_root") (.name "self")),
       .expr (.call (.attr (.name "self") "_read") [])]⟩),
    ("_read", ⟨["self"],
      [.setattr (.name "self") "data" (.call (.attr (.attr (.name "self") "_io") "read_bytes") [.attr (.attr (.name "self") "_parent") "message_length"])]⟩)]
  properties := []

/-- okdmr/kaitai/hytera/radio_control_protocol.py:208-219 -/
def RadioControlProtocol.CallRequest : ClassDef where
  name := "Hytera.RadioControlProtocol.CallRequest"
  methods := [("__init__", ⟨["self", "_io", "_parent", "_root"],
      [.setattr (.name "self") "_io" (.name "_io"),
       .setattr (.name "self") "_parent" (.name "_parent"),
       .setattr (.name "self") "_root" (.ifExp (.name "_root") (.name "_root") (.name "self")),
       .expr (.call (.attr (.name "self") "_read") [])]⟩),
    ("_read", ⟨["self"],
      [.setattr (.name "self") "call_type" (.call (.attr (.global "KaitaiStream") "resolve_enum") [.enum "Hytera.RadioControlProtocol.CallTypes", .call (.attr (.attr (.name "self") "_io") "read_u1") []]),
       .setattr (.name "self") "target_id" (.call (.attr (.attr (.name "self") "_io") "read_u4le") [])]⟩)]
  properties := []

/-- okdmr/kaitai/hytera/radio_control_protocol.py:221-233 -/
def RadioControlProtocol.RemoveRadioReply : ClassDef where
  name := "Hytera.RadioControlProtocol.RemoveRadioReply"
  methods := [("__init__", ⟨["self", "_io", "_parent", "_root"],
      [.setattr (.name "self") "_io" (.name "_io"),
       .setattr (.name "self") "_parent" (.name "_parent"),
       .setattr (.name "self") "_root" (.ifExp (.name "_root") (.name "_root") (.name "self")),
       .expr (.call (.attr (.name "self") "_read") [])]⟩),
    ("_read", ⟨["self"],
      [.setattr (.name "self") "result" (.call (.attr (.global "KaitaiStream") "resolve_enum") [.enum "Hytera.RadioControlProtocol.ReplyResults", .call (.attr (.attr (.name "self") "_io") "read_u1") []])]⟩)]
  properties := []

/-- okdmr/kaitai/hytera/radio_control_protocol.py:235-247 -/
def RadioControlProtocol.RemoveRadioRequest : ClassDef where
  name := "Hytera.RadioControlProtocol.RemoveRadioRequest"
  methods := [("__init__", ⟨["self", "_io", "_parent", "_root"],
      [.setattr (.name "self") "_io" (.name "_io"),
       .setattr (.name "self") "_parent" (.name "_parent"),
       .setattr (.name "self") "_root" (.ifExp (.name "_root") (.name "_root") (.name "self")),
       .expr (.call (.attr (.name "self") "_read") [])]⟩),
    ("_read", ⟨["self"],
      [.pass_]⟩)]
  properties := []

/-- okdmr/kaitai/hytera/radio_control_protocol.py:249-259 -/
def RadioControlProtocol.CallReply : ClassDef where
  name := "Hytera.RadioControlProtocol.CallReply"
  methods := [("__init__", ⟨["self", "_io", "_parent", "_root"],
      [.setattr (.name "self") "_io" (.name "_io"),
       .setattr (.name "self") "_parent" (.name "_parent"),
       .setattr (.name "self") "_root" (.ifExp (.name "_root") (.name "_root") (.name "self")),
       .expr (.call (.attr (.name "self") "_read") [])]⟩),
    ("_read", ⟨["self"],
      [.setattr (.name "self") "result" (.call (.attr (.global "KaitaiStream") "resolve_enum") [.enum "Hytera.RadioControlProtocol.ReplyResults", .call (.attr (.attr (.name "self") "_io") "read_u1") []])]⟩)]
  properties := []

/-- okdmr/kaitai/hytera/radio_control_protocol.py:15-259 -/
def RadioControlProtocol : ClassDef where
  name := "Hytera.RadioControlProtocol"
  methods := [("__init__", ⟨["self", "_io", "_parent", "_root"],
      [.setattr (.name "self") "_io" (.name "_io"),
       .setattr (.name "self") "_parent" (.name "_parent"),
       .setattr (.name "self") "_root" (.ifExp (.name "_root") (.name "_root") (.name "self")),
       .expr (.call (.attr (.name "self") "_read") [])]⟩),
    ("_read", ⟨["self"],
      [.setattr (.name "self") "service_type" (.call (.attr (.global "KaitaiStream") "resolve_enum") [.enum "Hytera.RadioControlProtocol.ServiceTypes", .call (.attr (.attr (.name "self") "_io") "read_u2le") []]),
       .setattr (.name "self") "message_length" (.call (.attr (.attr (.name "self") "_io") "read_u2le") []),
       .assign "_on" (.attr (.name "self") "service_type"),
       .if_ (.cmp .eq (.name "_on") (.attr (.enum "Hytera.RadioControlProtocol.ServiceTypes") "call_reply"))
        [.setattr (.name "self") "data" (.call (.cls "Hytera.RadioControlProtocol.CallReply") [.attr (.name "self") "_io", .name "self", .attr (.name "self") "_root"])]
        [.if_ (.cmp .eq (.name "_on") (.attr (.enum "Hytera.RadioControlProtocol.ServiceTypes") "radio_identification_reply"))
          [.setattr (.name "self") "data" (.call (.cls "Hytera.RadioControlProtocol.RadioIdentificationReply") [.attr (.name "self") "_io", .name "self", .attr (.name "self") "_root"])]
          [.if_ (.cmp .eq (.name "_on") (.attr (.enum "Hytera.RadioControlProtocol.ServiceTypes") "broadcast_status_configuration_request"))
            [.setattr (.name "self") "data" (.call (.cls "Hytera.RadioControlProtocol.BroadcastStatusConfigurationRequest") [.attr (.name "self") "_io", .name "self", .attr (.name "self") "_root"])]
            [.if_ (.cmp .eq (.name "_on") (.attr (.enum "Hytera.RadioControlProtocol.ServiceTypes") "call_request"))
              [.setattr (.name "self") "data" (.call (.cls "Hytera.RadioControlProtocol.CallRequest") [.attr (.name "self") "_io", .name "self", .attr (.name "self") "_root"])]
              [.if_ (.cmp .eq (.name "_on") (.attr (.enum "Hytera.RadioControlProtocol.ServiceTypes") "remove_radio_request"))
                [.setattr (.name "self") "data" (.call (.cls "Hytera.RadioControlProtocol.RemoveRadioRequest") [.attr (.name "self") "_io", .name "self", .attr (.name "self") "_root"])]
                [.if_ (.cmp .eq (.name "_on") (.attr (.enum "Hytera.RadioControlProtocol.ServiceTypes") "broadcast_status_configuration_reply"))
                  [.setattr (.name "self") "data" (.call (.cls "Hytera.RadioControlProtocol.BroadcastStatusConfigurationReply") [.attr (.name "self") "_io", .name "self", .attr (.name "self") "_root"])]
                  [.if_ (.cmp .eq (.name "_on") (.attr (.enum "Hytera.RadioControlProtocol.ServiceTypes") "remove_radio_reply"))
                    [.setattr (.name "self") "data" (.call (.cls "Hytera.RadioControlProtocol.RemoveRadioReply") [.attr (.name "self") "_io", .name "self", .attr (.name "self") "_root"])]
                    [.setattr (.name "self") "data" (.call (.cls "Hytera.RadioControlProtocol.GenericData") [.attr (.name "self") "_io", .name "self", .attr (.name "self") "_root"])]]]]]]]]⟩)]
  properties := []

/-- okdmr/kaitai/hytera/radio_control_protocol.py -/
def RadioControlProtocol.file : File where
  classes := [RadioControlProtocol.BroadcastStatusConfigurationReply,
    RadioControlProtocol.BroadcastConfiguration,
    RadioControlProtocol.BroadcastStatusConfigurationRequest,
    RadioControlProtocol.RadioIdentificationReply,
    RadioControlProtocol.GenericData,
    RadioControlProtocol.CallRequest,
    RadioControlProtocol.RemoveRadioReply,
    RadioControlProtocol.RemoveRadioRequest,
    RadioControlProtocol.CallReply,
    RadioControlProtocol]
  enums := [RadioControlProtocol.ServiceTypes,
    RadioControlProtocol.CallTypes,
    RadioControlProtocol.ReplyResults]

end Dmr.Py.Source.Hytera
