import Verif.Py.Syntax
/-
Generated by tools/mkpyast.py: okdmr/kaitai/hytera/location_protocol.py as data.
-/

set_option autoImplicit false

namespace Dmr.Py.Source.Hytera

/-- okdmr/kaitai/hytera/location_protocol.py:22-24 -/
def LocationProtocol.CmdTypes : EnumDef where
  qualified := "Hytera.LocationProtocol.CmdTypes"
  name := "CmdTypes"
  members := [("cancel_request", 0), ("start_request", 1)]

/-- okdmr/kaitai/hytera/location_protocol.py:26-44 -/
def LocationProtocol.LpSpecificTypes : EnumDef where
  qualified := "Hytera.LocationProtocol.LpSpecificTypes"
  name := "LpSpecificTypes"
  members := [("standard_request", 40961), ("standard_answer", 40962), ("standard_answer_with_rssi", 40963), ("standard_answer_gps_bt", 40964), ("emergency_report_stop_request", 45057), ("emergency_report_stop_answer", 45058), ("emergency_report", 45059), ("triggered_report_request", 49153), ("triggered_report_answer", 49154), ("triggered_report", 49155), ("triggered_report_stop_request", 49156), ("triggered_report_stop_answer", 49157), ("condition_report_request", 53249), ("condition_report_answer", 53250), ("condition_report", 53251), ("condition_report_with_rssi", 53252), ("condition_quick_gps_request", 53265), ("condition_quick_gps_answer", 53266)]

/-- okdmr/kaitai/hytera/location_protocol.py:46-51 -/
def LocationProtocol.LpGeneralTypes : EnumDef where
  qualified := "Hytera.LocationProtocol.LpGeneralTypes"
  name := "LpGeneralTypes"
  members := [("standard_location_immediate_service", 160), ("emergency_location_reporting_service", 176), ("triggered_location_reporting_service", 192), ("condition_triggered_reporting_service", 208), ("rssi_report_configuring_service", 224)]

/-- okdmr/kaitai/hytera/location_protocol.py:53-58 -/
def LocationProtocol.TriggerTypes : EnumDef where
  qualified := "Hytera.LocationProtocol.TriggerTypes"
  name := "TriggerTypes"
  members := [("cancel_request", 0), ("distance", 1), ("time", 2), ("distance_and_time", 3), ("distance_or_time", 4)]

/-- okdmr/kaitai/hytera/location_protocol.py:60-63 -/
def LocationProtocol.ResultCodes : EnumDef where
  qualified := "Hytera.LocationProtocol.ResultCodes"
  name := "ResultCodes"
  members := [("ok", 0), ("position_method_failure", 6), ("request_format_error", 105)]

/-- okdmr/kaitai/hytera/location_protocol.py:136-148 -/
def LocationProtocol.TriggeredReportStopAnswer : ClassDef where
  name := "Hytera.LocationProtocol.TriggeredReportStopAnswer"
  methods := [("__init__", ⟨["self", "_io", "_parent", "_root"],
      [.setattr (.name "self") "_io" (.name "_io"),
       .setattr (.name "self") "_parent" (.name "_parent"),
       .setattr (.name "self") "_root" (.ifExp (.name "_root") (.name "_root") (.name "self")),
       .expr (.call (.attr (.name "self") "_read") [])]⟩),
    ("_read", ⟨["self"],
      [.setattr (.name "self") "request_id" (.call (.attr (.attr (.name "self") "_io") "read_u4be") []),
       .setattr (.name "self") "radio_ip" (.call (.cls "Hytera.RadioIp") [.attr (.name "self") "_io"]),
       .setattr (.name "self") "result" (.call (.attr (.global "KaitaiStream") "resolve_enum") [.enum "Hytera.LocationProtocol.ResultCodes", .call (.attr (.attr (.name "self") "_io") "read_u2be") []])]⟩)]
  properties := []

/-- okdmr/kaitai/hytera/location_protocol.py:150-165 -/
def LocationProtocol.ConditionReportRequest : ClassDef where
  name := "Hytera.LocationProtocol.ConditionReportRequest"
  methods := [("__init__", ⟨["self", "_io", "_parent", "_root"],
      [.setattr (.name "self") "_io" (.name "_io"),
       .setattr (.name "self") "_parent" (.name "_parent"),
       .setattr (.name "self") "_root" (.ifExp (.name "_root") (.name "_root") (.name "self")),
       .expr (.call (.attr (.name "self") "_read") [])]⟩),
    ("_read", ⟨["self"],
      [.setattr (.name "self") "request_id" (.call (.attr (.attr (.name "self") "_io") "read_u4be") []),
       .setattr (.name "self") "radio_ip" (.call (.cls "Hytera.RadioIp") [.attr (.name "self") "_io"]),
       .setattr (.name "self") "trigger_type" (.call (.attr (.attr (.name "self") "_io") "read_u1") []),
       .setattr (.name "self") "distance" (.call (.attr (.attr (.name "self") "_io") "read_u4be") []),
       .setattr (.name "self") "start_time" (.call (.cls "Hytera.Datetimestring") [.attr (.name "self") "_io"]),
       .setattr (.name "self") "stop_time" (.call (.cls "Hytera.Datetimestring") [.attr (.name "self") "_io"]),
       .setattr (.name "self") "interval" (.call (.cls "Hytera.Intervalstring") [.attr (.name "self") "_io"]),
       .setattr (.name "self") "max_interval" (.call (.cls "Hytera.Intervalstring") [.attr (.name "self") "_io"])]⟩)]
  properties := []

/-- okdmr/kaitai/hytera/location_protocol.py:167-183 -/
def LocationProtocol.ConditionQuickGpsRequest : ClassDef where
  name := "Hytera.LocationProtocol.ConditionQuickGpsRequest"
  methods := [("__init__", ⟨["self", "_io", "_parent", "_root"],
      [.setattr (.name "self") "_io" (.name "_io"),
       .setattr (.name "self") "_parent" (.name "_parent"),
       .setattr (.name "self") "_root" (.ifExp (.name "_root") (.name "_root") (.name "self")),
       .expr (.call (.attr (.name "self") "_read") [])]⟩),
    ("_read", ⟨["self"],
      [.setattr (.name "self") "request_id" (.call (.attr (.attr (.name "self") "_io") "read_u4be") []),
       .setattr (.name "self") "radio_ip" (.call (.cls "Hytera.RadioIp") [.attr (.name "self") "_io"]),
       .setattr (.name "self") "cmd_type" (.call (.attr (.global "KaitaiStream") "resolve_enum") [.enum "Hytera.LocationProtocol.CmdTypes", .call (.attr (.attr (.name "self") "_io") "read_u1") []]),
       .if_ (.cmp .eq (.attr (.name "self") "cmd_type") (.attr (.enum "Hytera.LocationProtocol.CmdTypes") "start_request"))
        [.setattr (.name "self") "quick_gps_payload" (.call (.cls "Hytera.LocationProtocol.QuickGpsPayload") [.attr (.name "self") "_io", .name "self", .attr (.name "self") "_root"])]
        []]⟩)]
  properties := []

/-- okdmr/kaitai/hytera/location_protocol.py:185-195 -/
def LocationProtocol.ConditionReport : ClassDef where
  name := "Hytera.LocationProtocol.ConditionReport"
  methods := [("__init__", ⟨["self", "_io", "_parent", "_root"],
      [.setattr (.name "self") "_io" (.name "_io"),
       .setattr (.name "self") "_parent" (.name "_parent"),
       .setattr (.name "self") "_root" (.ifExp (.name "_root") (.name "_root") (.name "self")),
       .expr (.call (.attr (.name "self") "_read") [])]⟩),
    ("_read", ⟨["self"],
      [.setattr (.name "self") "request_id" (.call (.attr (.attr (.name "self") "_io") "read_u4be") []),
       .setattr (.name "self") "radio_ip" (.call (.cls "Hytera.RadioIp") [.attr (.name "self") "_io"]),
       .setattr (.name "self") "gpsdata" (.call (.cls "Hytera.Gpsdata") [.attr (.name "self") "_io"])]⟩)]
  properties := []

/-- okdmr/kaitai/hytera/location_protocol.py:197-207 -/
def LocationProtocol.EmergencyReport : ClassDef where
  name := "Hytera.LocationProtocol.EmergencyReport"
  methods := [("__init__", ⟨["self", "_io", "_parent", "_root"],
      [.setattr (.name "self") "_io" (.name "_io"),
       .setattr (.name "self") "_parent" (.name "_parent"),
       .setattr (.name "self") "_root" (.ifExp (.name "_root") (.name "_root") (.name "self")),
       .expr (.call (.attr (.name "self") "_read") [])]⟩),
    ("_read", ⟨["self"],
      [.setattr (.name "self") "radio_ip" (.call (.cls "Hytera.RadioIp") [.attr (.name "self") "_io"]),
       .setattr (.name "self") "emergency_type" (.call (.attr (.attr (.name "self") "_io") "read_u1") []),
       .setattr (.name "self") "gpsdata" (.call (.cls "Hytera.Gpsdata") [.attr (.name "self") "_io"])]⟩)]
  properties := []

/-- okdmr/kaitai/hytera/location_protocol.py:209-221 -/
def LocationProtocol.TriggeredReportAnswer : ClassDef where
  name := "Hytera.LocationProtocol.TriggeredReportAnswer"
  methods := [("__init__", ⟨["self", "_io", "_parent", "_root"],
      [.setattr (.name "self") "_io" (.name "_io"),
       .setattr (.name "self") "_parent" (.name "_parent"),
       .setattr (.name "self") "_root" (.ifExp (.name "_root") (.name "_root") (.name "self")),
       .expr (.call (.attr (.name "self") "_read") [])]⟩),
    ("_read", ⟨["self"],
      [.setattr (.name "self") "request_id" (.call (.attr (.attr (.name "self") "_io") "read_u4be") []),
       .setattr (.name "self") "radio_ip" (.call (.cls "Hytera.RadioIp") [.attr (.name "self") "_io"]),
       .setattr (.name "self") "result" (.call (.attr (.global "KaitaiStream") "resolve_enum") [.enum "Hytera.LocationProtocol.ResultCodes", .call (.attr (.attr (.name "self") "_io") "read_u2be") []])]⟩)]
  properties := []

/-- okdmr/kaitai/hytera/location_protocol.py:223-237 -/
def LocationProtocol.StandardAnswerWithRssi : ClassDef where
  name := "Hytera.LocationProtocol.StandardAnswerWithRssi"
  methods := [("__init__", ⟨["self", "_io", "_parent", "_root"],
      [.setattr (.name "self") "_io" (.name "_io"),
       .setattr (.name "self") "_parent" (.name "_parent"),
       .setattr (.name "self") "_root" (.ifExp (.name "_root") (.name "_root") (.name "self")),
       .expr (.call (.attr (.name "self") "_read") [])]⟩),
    ("_read", ⟨["self"],
      [.setattr (.name "self") "request_id" (.call (.attr (.attr (.name "self") "_io") "read_u4be") []),
       .setattr (.name "self") "radio_ip" (.call (.cls "Hytera.RadioIp") [.attr (.name "self") "_io"]),
       .setattr (.name "self") "result" (.call (.attr (.global "KaitaiStream") "resolve_enum") [.enum "Hytera.LocationProtocol.ResultCodes", .call (.attr (.attr (.name "self") "_io") "read_u2be") []]),
       .setattr (.name "self") "gpsdata" (.call (.cls "Hytera.Gpsdata") [.attr (.name "self") "_io"]),
       .setattr (.name "self") "rssi_value" (.call (.attr (.attr (.name "self") "_io") "read_s2be") [])]⟩)]
  properties := []

/-- okdmr/kaitai/hytera/location_protocol.py:239-252 -/
def LocationProtocol.QuickGpsPayload : ClassDef where
  name := "Hytera.LocationProtocol.QuickGpsPayload"
  methods := [("__init__", ⟨["self", "_io", "_parent", "_root"],
      [.setattr (.name "self") "_io" (.name "_io"),
       .setattr (.name "self") "_parent" (.name "_parent"),
       .setattr (.name "self") "_root" (.ifExp (.name "_root") (.name "_root") (.name "self")),
       .expr (.call (.attr (.name "self") "_read") [])]⟩),
    ("_read", ⟨["self"],
      [.setattr (.name "self") "start_time" (.call (.cls "Hytera.Datetimestring") [.attr (.name "self") "_io"]),
       .setattr (.name "self") "stop_time" (.call (.cls "Hytera.Datetimestring") [.attr (.name "self") "_io"]),
       .setattr (.name "self") "interval" (.call (.cls "Hytera.Intervalstring") [.attr (.name "self") "_io"]),
       .setattr (.name "self") "send_step" (.call (.attr (.attr (.name "self") "_io") "read_u2be") []),
       .setattr (.name "self") "channel_use_percentage" (.call (.attr (.attr (.name "self") "_io") "read_u1") []),
       .setattr (.name "self") "send_order" (.call (.attr (.attr (.name "self") "_io") "read_u2be") [])]⟩)]
  properties := []

/-- okdmr/kaitai/hytera/location_protocol.py:254-263 -/
def LocationProtocol.StandardRequest : ClassDef where
  name := "Hytera.LocationProtocol.StandardRequest"
  methods := [("__init__", ⟨["self", "_io", "_parent", "_root"],
      [.setattr (.name "self") "_io" (.name "_io"),
       .setattr (.name "self") "_parent" (.name "_parent"),
       .setattr (.name "self") "_root" (.ifExp (.name "_root") (.name "_root") (.name "self")),
       .expr (.call (.attr (.name "self") "_read") [])]⟩),
    ("_read", ⟨["self"],
      [.setattr (.name "self") "request_id" (.call (.attr (.attr (.name "self") "_io") "read_u4be") []),
       .setattr (.name "self") "radio_ip" (.call (.cls "Hytera.RadioIp") [.attr (.name "self") "_io"])]⟩)]
  properties := []

/-- okdmr/kaitai/hytera/location_protocol.py:265-277 -/
def LocationProtocol.TriggeredReportRequest : ClassDef where
  name := "Hytera.LocationProtocol.TriggeredReportRequest"
  methods := [("__init__", ⟨["self", "_io", "_parent", "_root"],
      [.setattr (.name "self") "_io" (.name "_io"),
       .setattr (.name "self") "_parent" (.name "_parent"),
       .setattr (.name "self") "_root" (.ifExp (.name "_root") (.name "_root") (.name "self")),
       .expr (.call (.attr (.name "self") "_read") [])]⟩),
    ("_read", ⟨["self"],
      [.setattr (.name "self") "request_id" (.call (.attr (.attr (.name "self") "_io") "read_u4be") []),
       .setattr (.name "self") "radio_ip" (.call (.cls "Hytera.RadioIp") [.attr (.name "self") "_io"]),
       .setattr (.name "self") "start_time" (.call (.cls "Hytera.Datetimestring") [.attr (.name "self") "_io"]),
       .setattr (.name "self") "stop_time" (.call (.cls "Hytera.Datetimestring") [.attr (.name "self") "_io"]),
       .setattr (.name "self") "interval" (.call (.cls "Hytera.Intervalstring") [.attr (.name "self") "_io"])]⟩)]
  properties := []

/-- okdmr/kaitai/hytera/location_protocol.py:279-292 -/
def LocationProtocol.StandardAnswer : ClassDef where
  name := "Hytera.LocationProtocol.StandardAnswer"
  methods := [("__init__", ⟨["self", "_io", "_parent", "_root"],
      [.setattr (.name "self") "_io" (.name "_io"),
       .setattr (.name "self") "_parent" (.name "_parent"),
       .setattr (.name "self") "_root" (.ifExp (.name "_root") (.name "_root") (.name "self")),
       .expr (.call (.attr (.name "self") "_read") [])]⟩),
    ("_read", ⟨["self"],
      [.setattr (.name "self") "request_id" (.call (.attr (.attr (.name "self") "_io") "read_u4be") []),
       .setattr (.name "self") "radio_ip" (.call (.cls "Hytera.RadioIp") [.attr (.name "self") "_io"]),
       .setattr (.name "self") "result" (.call (.attr (.global "KaitaiStream") "resolve_enum") [.enum "Hytera.LocationProtocol.ResultCodes", .call (.attr (.attr (.name "self") "_io") "read_u2be") []]),
       .setattr (.name "self") "gpsdata" (.call (.cls "Hytera.Gpsdata") [.attr (.name "self") "_io"])]⟩)]
  properties := []

/-- okdmr/kaitai/hytera/location_protocol.py:294-309 -/
def LocationProtocol.ConditionReportAnswer : ClassDef where
  name := "Hytera.LocationProtocol.ConditionReportAnswer"
  methods := [("__init__", ⟨["self", "_io", "_parent", "_root"],
      [.setattr (.name "self") "_io" (.name "_io"),
       .setattr (.name "self") "_parent" (.name "_parent"),
       .setattr (.name "self") "_root" (.ifExp (.name "_root") (.name "_root") (.name "self")),
       .expr (.call (.attr (.name "self") "_read") [])]⟩),
    ("_read", ⟨["self"],
      [.setattr (.name "self") "request_id" (.call (.attr (.attr (.name "self") "_io") "read_u4be") []),
       .setattr (.name "self") "radio_ip" (.call (.cls "Hytera.RadioIp") [.attr (.name "self") "_io"]),
       .setattr (.name "self") "trigger_type" (.call (.attr (.global "KaitaiStream") "resolve_enum") [.enum "Hytera.LocationProtocol.TriggerTypes", .call (.attr (.attr (.name "self") "_io") "read_u1") []]),
       .setattr (.name "self") "result" (.call (.attr (.global "KaitaiStream") "resolve_enum") [.enum "Hytera.LocationProtocol.ResultCodes", .call (.attr (.attr (.name "self") "_io") "read_u2be") []])]⟩)]
  properties := []

/-- okdmr/kaitai/hytera/location_protocol.py:311-320 -/
def LocationProtocol.EmergencyReportStopRequest : ClassDef where
  name := "Hytera.LocationProtocol.EmergencyReportStopRequest"
  methods := [("__init__", ⟨["self", "_io", "_parent", "_root"],
      [.setattr (.name "self") "_io" (.name "_io"),
       .setattr (.name "self") "_parent" (.name "_parent"),
       .setattr (.name "self") "_root" (.ifExp (.name "_root") (.name "_root") (.name "self")),
       .expr (.call (.attr (.name "self") "_read") [])]⟩),
    ("_read", ⟨["self"],
      [.setattr (.name "self") "request_id" (.call (.attr (.attr (.name "self") "_io") "read_u4be") []),
       .setattr (.name "self") "radio_ip" (.call (.cls "Hytera.RadioIp") [.attr (.name "self") "_io"])]⟩)]
  properties := []

/-- okdmr/kaitai/hytera/location_protocol.py:322-337 -/
def LocationProtocol.ConditionQuickGpsAnswer : ClassDef where
  name := "Hytera.LocationProtocol.ConditionQuickGpsAnswer"
  methods := [("__init__", ⟨["self", "_io", "_parent", "_root"],
      [.setattr (.name "self") "_io" (.name "_io"),
       .setattr (.name "self") "_parent" (.name "_parent"),
       .setattr (.name "self") "_root" (.ifExp (.name "_root") (.name "_root") (.name "self")),
       .expr (.call (.attr (.name "self") "_read") [])]⟩),
    ("_read", ⟨["self"],
      [.setattr (.name "self") "request_id" (.call (.attr (.attr (.name "self") "_io") "read_u4be") []),
       .setattr (.name "self") "radio_ip" (.call (.cls "Hytera.RadioIp") [.attr (.name "self") "_io"]),
       .setattr (.name "self") "cmd_type" (.call (.attr (.global "KaitaiStream") "resolve_enum") [.enum "Hytera.LocationProtocol.CmdTypes", .call (.attr (.attr (.name "self") "_io") "read_u1") []]),
       .setattr (.name "self") "result" (.call (.attr (.global "KaitaiStream") "resolve_enum") [.enum "Hytera.LocationProtocol.ResultCodes", .call (.attr (.attr (.name "self") "_io") "read_u2be") []])]⟩)]
  properties := []

/-- okdmr/kaitai/hytera/location_protocol.py:339-350 -/
def LocationProtocol.TriggeredReport : ClassDef where
  name := "Hytera.LocationProtocol.TriggeredReport"
  methods := [("__init__", ⟨["self", "_io", "_parent", "_root"],
      [.setattr (.name "self") "_io" (.name "_io"),
       .setattr (.name "self") "_parent" (.name "_parent"),
       .setattr (.name "self") "_root" (.ifExp (.name "_root") (.name "_root") (.name "self")),
       .expr (.call (.attr (.name "self") "_read") [])]⟩),
    ("_read", ⟨["self"],
      [.setattr (.name "self") "request_id" (.call (.attr (.attr (.name "self") "_io") "read_u4be") []),
       .setattr (.name "self") "radio_ip" (.call (.cls "Hytera.RadioIp") [.attr (.name "self") "_io"]),
       .setattr (.name "self") "time_remaining" (.call (.cls "Hytera.Intervalstring") [.attr (.name "self") "_io"]),
       .setattr (.name "self") "gpsdata" (.call (.cls "Hytera.Gpsdata") [.attr (.name "self") "_io"])]⟩)]
  properties := []

/-- okdmr/kaitai/hytera/location_protocol.py:352-366 -/
def LocationProtocol.ConditionReportWithRssi : ClassDef where
  name := "Hytera.LocationProtocol.ConditionReportWithRssi"
  methods := [("__init__", ⟨["self", "_io", "_parent", "_root"],
      [.setattr (.name "self") "_io" (.name "_io"),
       .setattr (.name "self") "_parent" (.name "_parent"),
       .setattr (.name "self") "_root" (.ifExp (.name "_root") (.name "_root") (.name "self")),
       .expr (.call (.attr (.name "self") "_read") [])]⟩),
    ("_read", ⟨["self"],
      [.setattr (.name "self") "request_id" (.call (.attr (.attr (.name "self") "_io") "read_u4be") []),
       .setattr (.name "self") "radio_ip" (.call (.cls "Hytera.RadioIp") [.attr (.name "self") "_io"]),
       .setattr (.name "self") "result" (.call (.attr (.global "KaitaiStream") "resolve_enum") [.enum "Hytera.LocationProtocol.ResultCodes", .call (.attr (.attr (.name "self") "_io") "read_u2be") []]),
       .setattr (.name "self") "gpsdata" (.call (.cls "Hytera.Gpsdata") [.attr (.name "self") "_io"]),
       .setattr (.name "self") "rssi_value" (.call (.attr (.attr (.name "self") "_io") "read_s2be") [])]⟩)]
  properties := []

/-- okdmr/kaitai/hytera/location_protocol.py:368-380 -/
def LocationProtocol.EmergencyReportStopAnswer : ClassDef where
  name := "Hytera.LocationProtocol.EmergencyReportStopAnswer"
  methods := [("__init__", ⟨["self", "_io", "_parent", "_root"],
      [.setattr (.name "self") "_io" (.name "_io"),
       .setattr (.name "self") "_parent" (.name "_parent"),
       .setattr (.name "self") "_root" (.ifExp (.name "_root") (.name "_root") (.name "self")),
       .expr (.call (.attr (.name "self") "_read") [])]⟩),
    ("_read", ⟨["self"],
      [.setattr (.name "self") "request_id" (.call (.attr (.attr (.name "self") "_io") "read_u4be") []),
       .setattr (.name "self") "radio_ip" (.call (.cls "Hytera.RadioIp") [.attr (.name "self") "_io"]),
       .setattr (.name "self") "result" (.call (.attr (.global "KaitaiStream") "resolve_enum") [.enum "Hytera.LocationProtocol.ResultCodes", .call (.attr (.attr (.name "self") "_io") "read_u2be") []])]⟩)]
  properties := []

/-- okdmr/kaitai/hytera/location_protocol.py:382-391 -/
def LocationProtocol.TriggeredReportStopRequest : ClassDef where
  name := "Hytera.LocationProtocol.TriggeredReportStopRequest"
  methods := [("__init__", ⟨["self", "_io", "_parent", "_root"],
      [.setattr (.name "self") "_io" (.name "_io"),
       .setattr (.name "self") "_parent" (.name "_parent"),
       .setattr (.name "self") "_root" (.ifExp (.name "_root") (.name "_root") (.name "self")),
       .expr (.call (.attr (.name "self") "_read") [])]⟩),
    ("_read", ⟨["self"],
      [.setattr (.name "self") "request_id" (.call (.attr (.attr (.name "self") "_io") "read_u4be") []),
       .setattr (.name "self") "radio_ip" (.call (.cls "Hytera.RadioIp") [.attr (.name "self") "_io"])]⟩)]
  properties := []

/-- okdmr/kaitai/hytera/location_protocol.py:20-404 -/
def LocationProtocol : ClassDef where
  name := "Hytera.LocationProtocol"
  methods := [("__init__", ⟨["self", "_io", "_parent", "_root"],
      [.setattr (.name "self") "_io" (.name "_io"),
       .setattr (.name "self") "_parent" (.name "_parent"),
       .setattr (.name "self") "_root" (.ifExp (.name "_root") (.name "_root") (.name "self")),
       .expr (.call (.attr (.name "self") "_read") [])]⟩),
    ("_read", ⟨["self"],
      [.setattr (.name "self") "opcode_header" (.call (.attr (.global "KaitaiStream") "resolve_enum") [.enum "Hytera.LocationProtocol.LpSpecificTypes", .call (.attr (.attr (.name "self") "_io") "read_u2be") []]),
       .setattr (.name "self") "message_length" (.call (.attr (.attr (.name "self") "_io") "read_u2be") []),
       .assign "_on" (.attr (.name "self") "opcode_header"),
       .if_ (.cmp .eq (.name "_on") (.attr (.enum "Hytera.LocationProtocol.LpSpecificTypes") "triggered_report_answer"))
        [.setattr (.name "self") "data" (.call (.cls "Hytera.LocationProtocol.TriggeredReportAnswer") [.attr (.name "self") "_io", .name "self", .attr (.name "self") "_root"])]
        [.if_ (.cmp .eq (.name "_on") (.attr (.enum "Hytera.LocationProtocol.LpSpecificTypes") "emergency_report_stop_request"))
          [.setattr (.name "self") "data" (.call (.cls "Hytera.LocationProtocol.EmergencyReportStopRequest") [.attr (.name "self") "_io", .name "self", .attr (.name "self") "_root"])]
          [.if_ (.cmp .eq (.name "_on") (.attr (.enum "Hytera.LocationProtocol.LpSpecificTypes") "condition_quick_gps_request"))
            [.setattr (.name "self") "data" (.call (.cls "Hytera.LocationProtocol.ConditionQuickGpsRequest") [.attr (.name "self") "_io", .name "self", .attr (.name "self") "_root"])]
            [.if_ (.cmp .eq (.name "_on") (.attr (.enum "Hytera.LocationProtocol.LpSpecificTypes") "condition_report"))
              [.setattr (.name "self") "data" (.call (.cls "Hytera.LocationProtocol.ConditionReport") [.attr (.name "self") "_io", .name "self", .attr (.name "self") "_root"])]
              [.if_ (.cmp .eq (.name "_on") (.attr (.enum "Hytera.LocationProtocol.LpSpecificTypes") "emergency_report_stop_answer"))
                [.setattr (.name "self") "data" (.call (.cls "Hytera.LocationProtocol.EmergencyReportStopAnswer") [.attr (.name "self") "_io", .name "self", .attr (.name "self") "_root"])]
                [.if_ (.cmp .eq (.name "_on") (.attr (.enum "Hytera.LocationProtocol.LpSpecificTypes") "condition_report_answer"))
                  [.setattr (.name "self") "data" (.call (.cls "Hytera.LocationProtocol.ConditionReportAnswer") [.attr (.name "self") "_io", .name "self", .attr (.name "self") "_root"])]
                  [.if_ (.cmp .eq (.name "_on") (.attr (.enum "Hytera.LocationProtocol.LpSpecificTypes") "standard_answer"))
                    [.setattr (.name "self") "data" (.call (.cls "Hytera.LocationProtocol.StandardAnswer") [.attr (.name "self") "_io", .name "self", .attr (.name "self") "_root"])]
                    [.if_ (.cmp .eq (.name "_on") (.attr (.enum "Hytera.LocationProtocol.LpSpecificTypes") "standard_request"))
                      [.setattr (.name "self") "data" (.call (.cls "Hytera.LocationProtocol.StandardRequest") [.attr (.name "self") "_io", .name "self", .attr (.name "self") "_root"])]
                      [.if_ (.cmp .eq (.name "_on") (.attr (.enum "Hytera.LocationProtocol.LpSpecificTypes") "triggered_report"))
                        [.setattr (.name "self") "data" (.call (.cls "Hytera.LocationProtocol.TriggeredReport") [.attr (.name "self") "_io", .name "self", .attr (.name "self") "_root"])]
                        [.if_ (.cmp .eq (.name "_on") (.attr (.enum "Hytera.LocationProtocol.LpSpecificTypes") "triggered_report_stop_answer"))
                          [.setattr (.name "self") "data" (.call (.cls "Hytera.LocationProtocol.TriggeredReportStopAnswer") [.attr (.name "self") "_io", .name "self", .attr (.name "self") "_root"])]
                          [.if_ (.cmp .eq (.name "_on") (.attr (.enum "Hytera.LocationProtocol.LpSpecificTypes") "standard_answer_with_rssi"))
                            [.setattr (.name "self") "data" (.call (.cls "Hytera.LocationProtocol.StandardAnswerWithRssi") [.attr (.name "self") "_io", .name "self", .attr (.name "self") "_root"])]
                            [.if_ (.cmp .eq (.name "_on") (.attr (.enum "Hytera.LocationProtocol.LpSpecificTypes") "condition_report_with_rssi"))
                              [.setattr (.name "self") "data" (.call (.cls "Hytera.LocationProtocol.ConditionReportWithRssi") [.attr (.name "self") "_io", .name "self", .attr (.name "self") "_root"])]
                              [.if_ (.cmp .eq (.name "_on") (.attr (.enum "Hytera.LocationProtocol.LpSpecificTypes") "triggered_report_stop_request"))
                                [.setattr (.name "self") "data" (.call (.cls "Hytera.LocationProtocol.TriggeredReportStopRequest") [.attr (.name "self") "_io", .name "self", .attr (.name "self") "_root"])]
                                [.if_ (.cmp .eq (.name "_on") (.attr (.enum "Hytera.LocationProtocol.LpSpecificTypes") "emergency_report"))
                                  [.setattr (.name "self") "data" (.call (.cls "Hytera.LocationProtocol.EmergencyReport") [.attr (.name "self") "_io", .name "self", .attr (.name "self") "_root"])]
                                  [.if_ (.cmp .eq (.name "_on") (.attr (.enum "Hytera.LocationProtocol.LpSpecificTypes") "condition_report_request"))
                                    [.setattr (.name "self") "data" (.call (.cls "Hytera.LocationProtocol.ConditionReportRequest") [.attr (.name "self") "_io", .name "self", .attr (.name "self") "_root"])]
                                    [.if_ (.cmp .eq (.name "_on") (.attr (.enum "Hytera.LocationProtocol.LpSpecificTypes") "triggered_report_request"))
                                      [.setattr (.name "self") "data" (.call (.cls "Hytera.LocationProtocol.TriggeredReportRequest") [.attr (.name "self") "_io", .name "self", .attr (.name "self") "_root"])]
                                      [.if_ (.cmp .eq (.name "_on") (.attr (.enum "Hytera.LocationProtocol.LpSpecificTypes") "condition_quick_gps_answer"))
                                        [.setattr (.name "self") "data" (.call (.cls "Hytera.LocationProtocol.ConditionQuickGpsAnswer") [.attr (.name "self") "_io", .name "self", .attr (.name "self") "_root"])]
                                        []]]]]]]]]]]]]]]]]]⟩)]
  properties := [("opcode", ⟨["self"],
      [.if_ (.call (.global "hasattr") [.name "self", .str "_m_opcode"])
        [.return_ (.attr (.name "self") "_m_opcode")]
        [],
       .assign "_pos" (.call (.attr (.attr (.name "self") "_io") "pos") []),
       .expr (.call (.attr (.attr (.name "self") "_io") "seek") [.int 0]),
       .setattr (.name "self") "_m_opcode" (.call (.attr (.global "KaitaiStream") "resolve_enum") [.enum "Hytera.LocationProtocol.LpGeneralTypes", .call (.attr (.attr (.name "self") "_io") "read_u1") []]),
       .expr (.call (.attr (.attr (.name "self") "_io") "seek") [.name "_pos"]),
       .return_ (.call (.global "getattr") [.name "self", .str "_m_opcode", .none])]⟩)]

/-- okdmr/kaitai/hytera/location_protocol.py -/
def LocationProtocol.file : File where
  classes := [LocationProtocol.TriggeredReportStopAnswer,
    LocationProtocol.ConditionReportRequest,
    LocationProtocol.ConditionQuickGpsRequest,
    LocationProtocol.ConditionReport,
    LocationProtocol.EmergencyReport,
    LocationProtocol.TriggeredReportAnswer,
    LocationProtocol.StandardAnswerWithRssi,
    LocationProtocol.QuickGpsPayload,
    LocationProtocol.StandardRequest,
    LocationProtocol.TriggeredReportRequest,
    LocationProtocol.StandardAnswer,
    LocationProtocol.ConditionReportAnswer,
    LocationProtocol.EmergencyReportStopRequest,
    LocationProtocol.ConditionQuickGpsAnswer,
    LocationProtocol.TriggeredReport,
    LocationProtocol.ConditionReportWithRssi,
    LocationProtocol.EmergencyReportStopAnswer,
    LocationProtocol.TriggeredReportStopRequest,
    LocationProtocol]
  enums := [LocationProtocol.CmdTypes,
    LocationProtocol.LpSpecificTypes,
    LocationProtocol.LpGeneralTypes,
    LocationProtocol.TriggerTypes,
    LocationProtocol.ResultCodes]

end Dmr.Py.Source.Hytera
