import Verif.Py.Syntax
/-
Generated by tools/mkpyast.py: okdmr/kaitai/hytera/telemetry_protocol.py as data.
-/

set_option autoImplicit false

namespace Dmr.Py.Source.Hytera

/-- okdmr/kaitai/hytera/telemetry_protocol.py:19-21 -/
def TelemetryProtocol.ServiceTypes : EnumDef where
  qualified := "Hytera.TelemetryProtocol.ServiceTypes"
  name := "ServiceTypes"
  members := [("status_report_service", 160), ("remote_control_service", 176)]

/-- okdmr/kaitai/hytera/telemetry_protocol.py:23-25 -/
def TelemetryProtocol.ResultTypes : EnumDef where
  qualified := "Hytera.TelemetryProtocol.ResultTypes"
  name := "ResultTypes"
  members := [("effective", 0), ("ineffective", 1)]

/-- okdmr/kaitai/hytera/telemetry_protocol.py:27-30 -/
def TelemetryProtocol.CallTypes : EnumDef where
  qualified := "Hytera.TelemetryProtocol.CallTypes"
  name := "CallTypes"
  members := [("private_call", 0), ("group_call", 1), ("all_call", 2)]

/-- okdmr/kaitai/hytera/telemetry_protocol.py:32-36 -/
def TelemetryProtocol.OperationTypes : EnumDef where
  qualified := "Hytera.TelemetryProtocol.OperationTypes"
  name := "OperationTypes"
  members := [("set_ineffective_level", 0), ("set_effective_level", 1), ("reverse_level", 2), ("output_one_pulse", 3)]

/-- okdmr/kaitai/hytera/telemetry_protocol.py:38-40 -/
def TelemetryProtocol.PcFlagTypes : EnumDef where
  qualified := "Hytera.TelemetryProtocol.PcFlagTypes"
  name := "PcFlagTypes"
  members := [("controller_is_radio", 0), ("controller_is_telemetry_application", 1)]

/-- okdmr/kaitai/hytera/telemetry_protocol.py:42-47 -/
def TelemetryProtocol.ServiceSpecificTypes : EnumDef where
  qualified := "Hytera.TelemetryProtocol.ServiceSpecificTypes"
  name := "ServiceSpecificTypes"
  members := [("standard_status_request", 40961), ("standard_status_report", 41089), ("extended_status_report", 41090), ("remote_control_request", 45057), ("remote_control_answer", 45185)]

/-- okdmr/kaitai/hytera/telemetry_protocol.py:49-51 -/
def TelemetryProtocol.ControlResultTypes : EnumDef where
  qualified := "Hytera.TelemetryProtocol.ControlResultTypes"
  name := "ControlResultTypes"
  members := [("success", 0), ("failure", 1)]

/-- okdmr/kaitai/hytera/telemetry_protocol.py:87-106 -/
def TelemetryProtocol.StandardStatusReport : ClassDef where
  name := "Hytera.TelemetryProtocol.StandardStatusReport"
  methods := [("__init__", ⟨["self", "_io", "_parent", "_root"],
      [.setattr (.name "self") "_io" (.name "_io"),
       .setattr (.name "self") "_parent" (.name "_parent"),
       .setattr (.name "self") "_root" (.ifExp (.name "_root") (.name "_root") (.name "self")),
       .expr (.call (.attr (.name "self") "_read") [])]⟩),
    ("_read", ⟨["self"],
      [.setattr (.name "self") "source_ip" (.call (.cls "Hytera.RadioIp") [.attr (.name "self") "_io"]),
       .setattr (.name "self") "target_ip" (.call (.cls "Hytera.RadioIp") [.attr (.name "self") "_io"]),
       .setattr (.name "self") "pc_flag" (.call (.attr (.global "KaitaiStream") "resolve_enum") [.enum "Hytera.TelemetryProtocol.PcFlagTypes", .call (.attr (.attr (.name "self") "_io") "read_u1") []]),
       .setattr (.name "self") "call_type" (.call (.attr (.global "KaitaiStream") "resolve_enum") [.enum "Hytera.TelemetryProtocol.CallTypes", .call (.attr (.attr (.name "self") "_io") "read_u1") []]),
       .setattr (.name "self") "vio_select" (.call (.attr (.attr (.name "self") "_io") "read_bytes") [.int 1]),
       .setattr (.name "self") "result" (.call (.attr (.global "KaitaiStream") "resolve_enum") [.enum "Hytera.TelemetryProtocol.ResultTypes", .call (.attr (.attr (.name "self") "_io") "read_u1") []])]⟩)]
  properties := []

/-- okdmr/kaitai/hytera/telemetry_protocol.py:108-120 -/
def TelemetryProtocol.VioExtendedStatus : ClassDef where
  name := "Hytera.TelemetryProtocol.VioExtendedStatus"
  methods := [("__init__", ⟨["self", "_io", "_parent", "_root"],
      [.setattr (.name "self") "_io" (.name "_io"),
       .setattr (.name "self") "_parent" (.name "_parent"),
       .setattr (.name "self") "_root" (.ifExp (.name "_root") (.name "_root") (.name "self")),
       .expr (.call (.attr (.name "self") "_read") [])]⟩),
    ("_read", ⟨["self"],
      [.setattr (.name "self") "result" (.call (.attr (.global "KaitaiStream") "resolve_enum") [.enum "Hytera.TelemetryProtocol.ResultTypes", .call (.attr (.attr (.name "self") "_io") "read_u1") []]),
       .setattr (.name "self") "message_length" (.call (.attr (.attr (.name "self") "_io") "read_u2be") []),
       .setattr (.name "self") "message" (.call (.attr (.call (.attr (.attr (.name "self") "_io") "read_bytes") [.attr (.name "self") "message_length"]) "decode") [.str "UTF-16LE"])]⟩)]
  properties := []

/-- okdmr/kaitai/hytera/telemetry_protocol.py:122-141 -/
def TelemetryProtocol.RemoteControlAnswer : ClassDef where
  name := "Hytera.TelemetryProtocol.RemoteControlAnswer"
  methods := [("__init__", ⟨["self", "_io", "_parent", "_root"],
      [.setattr (.name "self") "_io" (.name "_io"),
       .setattr (.name "self") "_parent" (.name "_parent"),
       .setattr (.name "self") "_root" (.ifExp (.name "_root") (.name "_root") (.name "self")),
       .expr (.call (.attr (.name "self") "_read") [])]⟩),
    ("_read", ⟨["self"],
      [.setattr (.name "self") "source_ip" (.call (.cls "Hytera.RadioIp") [.attr (.name "self") "_io"]),
       .setattr (.name "self") "target_ip" (.call (.cls "Hytera.RadioIp") [.attr (.name "self") "_io"]),
       .setattr (.name "self") "pc_flag" (.call (.attr (.global "KaitaiStream") "resolve_enum") [.enum "Hytera.TelemetryProtocol.PcFlagTypes", .call (.attr (.attr (.name "self") "_io") "read_u1") []]),
       .setattr (.name "self") "call_type" (.call (.attr (.global "KaitaiStream") "resolve_enum") [.enum "Hytera.TelemetryProtocol.CallTypes", .call (.attr (.attr (.name "self") "_io") "read_u1") []]),
       .setattr (.name "self") "vio_select" (.call (.attr (.attr (.name "self") "_io") "read_bytes") [.int 1]),
       .setattr (.name "self") "result" (.call (.attr (.global "KaitaiStream") "resolve_enum") [.enum "Hytera.TelemetryProtocol.ControlResultTypes", .call (.attr (.attr (.name "self") "_io") "read_u1") []])]⟩)]
  properties := []

/-- okdmr/kaitai/hytera/telemetry_protocol.py:143-162 -/
def TelemetryProtocol.RemoteControlRequest : ClassDef where
  name := "Hytera.TelemetryProtocol.RemoteControlRequest"
  methods := [("__init__", ⟨["self", "_io", "_parent", "_root"],
      [.setattr (.name "self") "_io" (.name "_io"),
       .setattr (.name "self") "_parent" (.name "_parent"),
       .setattr (.name "self") "_root" (.ifExp (.name "_root") (.name "_root") (.name "self")),
       .expr (.call (.attr (.name "self") "_read") [])]⟩),
    ("_read", ⟨["self"],
      [.setattr (.name "self") "source_ip" (.call (.cls "Hytera.RadioIp") [.attr (.name "self") "_io"]),
       .setattr (.name "self") "target_ip" (.call (.cls "Hytera.RadioIp") [.attr (.name "self") "_io"]),
       .setattr (.name "self") "pc_flag" (.call (.attr (.global "KaitaiStream") "resolve_enum") [.enum "Hytera.TelemetryProtocol.PcFlagTypes", .call (.attr (.attr (.name "self") "_io") "read_u1") []]),
       .setattr (.name "self") "call_type" (.call (.attr (.global "KaitaiStream") "resolve_enum") [.enum "Hytera.TelemetryProtocol.CallTypes", .call (.attr (.attr (.name "self") "_io") "read_u1") []]),
       .setattr (.name "self") "vio_select" (.call (.attr (.attr (.name "self") "_io") "read_bytes") [.int 1]),
       .setattr (.name "self") "operation" (.call (.attr (.global "KaitaiStream") "resolve_enum") [.enum "Hytera.TelemetryProtocol.OperationTypes", .call (.attr (.attr (.name "self") "_io") "read_u1") []])]⟩)]
  properties := []

/-- okdmr/kaitai/hytera/telemetry_protocol.py:164-183 -/
def TelemetryProtocol.ExtendedStatusReport : ClassDef where
  name := "Hytera.TelemetryProtocol.ExtendedStatusReport"
  methods := [("__init__", ⟨["self", "_io", "_parent", "_root"],
      [.setattr (.name "self") "_io" (.name "_io"),
       .setattr (.name "self") "_parent" (.name "_parent"),
       .setattr (.name "self") "_root" (.ifExp (.name "_root") (.name "_root") (.name "self")),
       .expr (.call (.attr (.name "self") "_read") [])]⟩),
    ("_read", ⟨["self"],
      [.setattr (.name "self") "source_ip" (.call (.cls "Hytera.RadioIp") [.attr (.name "self") "_io"]),
       .setattr (.name "self") "target_ip" (.call (.cls "Hytera.RadioIp") [.attr (.name "self") "_io"]),
       .setattr (.name "self") "pc_flag" (.call (.attr (.global "KaitaiStream") "resolve_enum") [.enum "Hytera.TelemetryProtocol.PcFlagTypes", .call (.attr (.attr (.name "self") "_io") "read_u1") []]),
       .setattr (.name "self") "call_type" (.call (.attr (.global "KaitaiStream") "resolve_enum") [.enum "Hytera.TelemetryProtocol.CallTypes", .call (.attr (.attr (.name "self") "_io") "read_u1") []]),
       .setattr (.name "self") "vio_select" (.call (.attr (.attr (.name "self") "_io") "read_bytes") [.int 1]),
       .setattr (.name "self") "result_messages" (.call (.cls "Hytera.TelemetryProtocol.VioExtendedStatus") [.attr (.name "self") "_io", .name "self", .attr (.name "self") "_root"])]⟩)]
  properties := []

/-- okdmr/kaitai/hytera/telemetry_protocol.py:185-201 -/
def TelemetryProtocol.StandardStatusRequest : ClassDef where
  name := "Hytera.TelemetryProtocol.StandardStatusRequest"
  methods := [("__init__", ⟨["self", "_io", "_parent", "_root"],
      [.setattr (.name "self") "_io" (.name "_io"),
       .setattr (.name "self") "_parent" (.name "_parent"),
       .setattr (.name "self") "_root" (.ifExp (.name "_root") (.name "_root") (.name "self")),
       .expr (.call (.attr (.name "self") "_read") [])]⟩),
    ("_read", ⟨["self"],
      [.setattr (.name "self") "source_ip" (.call (.cls "Hytera.RadioIp") [.attr (.name "self") "_io"]),
       .setattr (.name "self") "target_ip" (.call (.cls "Hytera.RadioIp") [.attr (.name "self") "_io"]),
       .setattr (.name "self") "pc_flag" (.call (.attr (.global "KaitaiStream") "resolve_enum") [.enum "Hytera.TelemetryProtocol.PcFlagTypes", .call (.attr (.attr (.name "self") "_io") "read_u1") []]),
       .setattr (.name "self") "call_type" (.call (.attr (.global "KaitaiStream") "resolve_enum") [.enum "Hytera.TelemetryProtocol.CallTypes", .call (.attr (.attr (.name "self") "_io") "read_u1") []]),
       .setattr (.name "self") "vio_select" (.call (.attr (.attr (.name "self") "_io") "read_bytes") [.int 1])]⟩)]
  properties := []

/-- okdmr/kaitai/hytera/telemetry_protocol.py:17-214 -/
def TelemetryProtocol : ClassDef where
  name := "Hytera.TelemetryProtocol"
  methods := [("__init__", ⟨["self", "_io", "_parent", "_root"],
      [.setattr (.name "self") "_io" (.name "_io"),
       .setattr (.name "self") "_parent" (.name "_parent"),
       .setattr (.name "self") "_root" (.ifExp (.name "_root") (.name "_root") (.name "self")),
       .expr (.call (.attr (.name "self") "_read") [])]⟩),
    ("_read", ⟨["self"],
      [.setattr (.name "self") "service_type_opcode" (.call (.attr (.global "KaitaiStream") "resolve_enum") [.enum "Hytera.TelemetryProtocol.ServiceTypes", .call (.attr (.attr (.name "self") "_io") "read_u1") []]),
       .setattr (.name "self") "specific_service_opcode" (.call (.attr (.attr (.name "self") "_io") "read_u1") []),
       .setattr (.name "self") "message_length" (.call (.attr (.attr (.name "self") "_io") "read_u2be") []),
       .assign "_on" (.attr (.name "self") "specific_service"),
       .if_ (.cmp .eq (.name "_on") (.attr (.enum "Hytera.TelemetryProtocol.ServiceSpecificTypes") "standard_status_request"))
        [.setattr (.name "self") "data" (.call (.cls "Hytera.TelemetryProtocol.StandardStatusRequest") [.attr (.name "self") "_io", .name "self", .attr (.name "self") "_root"])]
        [.if_ (.cmp .eq (.name "_on") (.attr (.enum "Hytera.TelemetryProtocol.ServiceSpecificTypes") "remote_control_answer"))
          [.setattr (.name "self") "data" (.call (.cls "Hytera.TelemetryProtocol.RemoteControlAnswer") [.attr (.name "self") "_io", .name "self", .attr (.name "self") "_root"])]
          [.if_ (.cmp .eq (.name "_on") (.attr (.enum "Hytera.TelemetryProtocol.ServiceSpecificTypes") "extended_status_report"))
            [.setattr (.name "self") "data" (.call (.cls "Hytera.TelemetryProtocol.ExtendedStatusReport") [.attr (.name "self") "_io", .name "self", .attr (.name "self") "_root"])]
            [.if_ (.cmp .eq (.name "_on") (.attr (.enum "Hytera.TelemetryProtocol.ServiceSpecificTypes") "remote_control_request"))
              [.setattr (.name "self") "data" (.call (.cls "Hytera.TelemetryProtocol.RemoteControlRequest") [.attr (.name "self") "_io", .name "self", .attr (.name "self") "_root"])]
              [.if_ (.cmp .eq (.name "_on") (.attr (.enum "Hytera.TelemetryProtocol.ServiceSpecificTypes") "standard_status_report"))
                [.setattr (.name "self") "data" (.call (.cls "Hytera.TelemetryProtocol.StandardStatusReport") [.attr (.name "self") "_io", .name "self", .attr (.name "self") "_root"])]
                []]]]]]⟩)]
  properties := [("specific_service", ⟨["self"],
      [.if_ (.call (.global "hasattr") [.name "self", .str "_m_specific_service"])
        [.return_ (.attr (.name "self") "_m_specific_service")]
        [],
       .assign "_pos" (.call (.attr (.attr (.name "self") "_io") "pos") []),
       .expr (.call (.attr (.attr (.name "self") "_io") "seek") [.int 0]),
       .setattr (.name "self") "_m_specific_service" (.call (.attr (.global "KaitaiStream") "resolve_enum") [.enum "Hytera.TelemetryProtocol.ServiceSpecificTypes", .call (.attr (.attr (.name "self") "_io") "read_u2be") []]),
       .expr (.call (.attr (.attr (.name "self") "_io") "seek") [.name "_pos"]),
       .return_ (.call (.global "getattr") [.name "self", .str "_m_specific_service", .none])]⟩)]

/-- okdmr/kaitai/hytera/telemetry_protocol.py -/
def TelemetryProtocol.file : File where
  classes := [TelemetryProtocol.StandardStatusReport,
    TelemetryProtocol.VioExtendedStatus,
    TelemetryProtocol.RemoteControlAnswer,
    TelemetryProtocol.RemoteControlRequest,
    TelemetryProtocol.ExtendedStatusReport,
    TelemetryProtocol.StandardStatusRequest,
    TelemetryProtocol]
  enums := [TelemetryProtocol.ServiceTypes,
    TelemetryProtocol.ResultTypes,
    TelemetryProtocol.CallTypes,
    TelemetryProtocol.OperationTypes,
    TelemetryProtocol.PcFlagTypes,
    TelemetryProtocol.ServiceSpecificTypes,
    TelemetryProtocol.ControlResultTypes]

end Dmr.Py.Source.Hytera
