import Verif.Runtime
import Verif.Model.Hytera.RadioIp
import Verif.Model.Hytera.Gpsdata
import Verif.Model.Hytera.Datetimestring
import Verif.Model.Hytera.Intervalstring
/-
Model of okdmr/kaitai/hytera/location_protocol.py (generated by tools/py2lean.py from the Python AST;
definitions marked "hand-written" are not).
-/

namespace Dmr.Hytera

/-- okdmr/kaitai/hytera/location_protocol.py:22-24 `class CmdTypes(Enum)`. -/
inductive LocationProtocol.CmdTypes where
  | cancel_request
  | start_request
  deriving DecidableEq

/-- okdmr/kaitai/hytera/location_protocol.py:22-24 values of `CmdTypes`. -/
def LocationProtocol.CmdTypes.toNat : LocationProtocol.CmdTypes → Nat
  | .cancel_request => 0
  | .start_request => 1

/-- okdmr/kaitai/hytera/location_protocol.py:22-24 `CmdTypes` as a Python enumeration. -/
instance LocationProtocol.CmdTypes.instPyEnum : PyEnum LocationProtocol.CmdTypes where
  all := [.cancel_request, .start_request]
  value := LocationProtocol.CmdTypes.toNat

/-- okdmr/kaitai/hytera/location_protocol.py:26-44 `class LpSpecificTypes(Enum)`. -/
inductive LocationProtocol.LpSpecificTypes where
  | standard_request
  | standard_answer
  | standard_answer_with_rssi
  | standard_answer_gps_bt
  | emergency_report_stop_request
  | emergency_report_stop_answer
  | emergency_report
  | triggered_report_request
  | triggered_report_answer
  | triggered_report
  | triggered_report_stop_request
  | triggered_report_stop_answer
  | condition_report_request
  | condition_report_answer
  | condition_report
  | condition_report_with_rssi
  | condition_quick_gps_request
  | condition_quick_gps_answer
  deriving DecidableEq

/-- okdmr/kaitai/hytera/location_protocol.py:26-44 values of `LpSpecificTypes`. -/
def LocationProtocol.LpSpecificTypes.toNat : LocationProtocol.LpSpecificTypes → Nat
  | .standard_request => 40961
  | .standard_answer => 40962
  | .standard_answer_with_rssi => 40963
  | .standard_answer_gps_bt => 40964
  | .emergency_report_stop_request => 45057
  | .emergency_report_stop_answer => 45058
  | .emergency_report => 45059
  | .triggered_report_request => 49153
  | .triggered_report_answer => 49154
  | .triggered_report => 49155
  | .triggered_report_stop_request => 49156
  | .triggered_report_stop_answer => 49157
  | .condition_report_request => 53249
  | .condition_report_answer => 53250
  | .condition_report => 53251
  | .condition_report_with_rssi => 53252
  | .condition_quick_gps_request => 53265
  | .condition_quick_gps_answer => 53266

/-- okdmr/kaitai/hytera/location_protocol.py:26-44 `LpSpecificTypes` as a Python enumeration. -/
instance LocationProtocol.LpSpecificTypes.instPyEnum : PyEnum LocationProtocol.LpSpecificTypes where
  all := [.standard_request, .standard_answer, .standard_answer_with_rssi, .standard_answer_gps_bt, .emergency_report_stop_request, .emergency_report_stop_answer, .emergency_report, .triggered_report_request, .triggered_report_answer, .triggered_report, .triggered_report_stop_request, .triggered_report_stop_answer, .condition_report_request, .condition_report_answer, .condition_report, .condition_report_with_rssi, .condition_quick_gps_request, .condition_quick_gps_answer]
  value := LocationProtocol.LpSpecificTypes.toNat

/-- okdmr/kaitai/hytera/location_protocol.py:46-51 `class LpGeneralTypes(Enum)`. -/
inductive LocationProtocol.LpGeneralTypes where
  | standard_location_immediate_service
  | emergency_location_reporting_service
  | triggered_location_reporting_service
  | condition_triggered_reporting_service
  | rssi_report_configuring_service
  deriving DecidableEq

/-- okdmr/kaitai/hytera/location_protocol.py:46-51 values of `LpGeneralTypes`. -/
def LocationProtocol.LpGeneralTypes.toNat : LocationProtocol.LpGeneralTypes → Nat
  | .standard_location_immediate_service => 160
  | .emergency_location_reporting_service => 176
  | .triggered_location_reporting_service => 192
  | .condition_triggered_reporting_service => 208
  | .rssi_report_configuring_service => 224

/-- okdmr/kaitai/hytera/location_protocol.py:46-51 `LpGeneralTypes` as a Python enumeration. -/
instance LocationProtocol.LpGeneralTypes.instPyEnum : PyEnum LocationProtocol.LpGeneralTypes where
  all := [.standard_location_immediate_service, .emergency_location_reporting_service, .triggered_location_reporting_service, .condition_triggered_reporting_service, .rssi_report_configuring_service]
  value := LocationProtocol.LpGeneralTypes.toNat

/-- okdmr/kaitai/hytera/location_protocol.py:53-58 `class TriggerTypes(Enum)`. -/
inductive LocationProtocol.TriggerTypes where
  | cancel_request
  | distance
  | time
  | distance_and_time
  | distance_or_time
  deriving DecidableEq

/-- okdmr/kaitai/hytera/location_protocol.py:53-58 values of `TriggerTypes`. -/
def LocationProtocol.TriggerTypes.toNat : LocationProtocol.TriggerTypes → Nat
  | .cancel_request => 0
  | .distance => 1
  | .time => 2
  | .distance_and_time => 3
  | .distance_or_time => 4

/-- okdmr/kaitai/hytera/location_protocol.py:53-58 `TriggerTypes` as a Python enumeration. -/
instance LocationProtocol.TriggerTypes.instPyEnum : PyEnum LocationProtocol.TriggerTypes where
  all := [.cancel_request, .distance, .time, .distance_and_time, .distance_or_time]
  value := LocationProtocol.TriggerTypes.toNat

/-- okdmr/kaitai/hytera/location_protocol.py:60-63 `class ResultCodes(Enum)`. -/
inductive LocationProtocol.ResultCodes where
  | ok
  | position_method_failure
  | request_format_error
  deriving DecidableEq

/-- okdmr/kaitai/hytera/location_protocol.py:60-63 values of `ResultCodes`. -/
def LocationProtocol.ResultCodes.toNat : LocationProtocol.ResultCodes → Nat
  | .ok => 0
  | .position_method_failure => 6
  | .request_format_error => 105

/-- okdmr/kaitai/hytera/location_protocol.py:60-63 `ResultCodes` as a Python enumeration. -/
instance LocationProtocol.ResultCodes.instPyEnum : PyEnum LocationProtocol.ResultCodes where
  all := [.ok, .position_method_failure, .request_format_error]
  value := LocationProtocol.ResultCodes.toNat

/-- okdmr/kaitai/hytera/location_protocol.py:143-148 attributes of `LocationProtocol.TriggeredReportStopAnswer`. -/
structure LocationProtocol.TriggeredReportStopAnswer where
  request_id : Nat
  radio_ip : RadioIp
  result : EnumVal LocationProtocol.ResultCodes
  deriving DecidableEq

/-- okdmr/kaitai/hytera/location_protocol.py:143-148 `LocationProtocol.TriggeredReportStopAnswer._read`. -/
def LocationProtocol.TriggeredReportStopAnswer.read : Rd LocationProtocol.TriggeredReportStopAnswer := do
  let request_id ← readU4be
  let radio_ip ← RadioIp.read
  let result ← asEnum LocationProtocol.ResultCodes (readU2be)
  return { request_id, radio_ip, result }

/-- okdmr/kaitai/hytera/location_protocol.py:157-165 attributes of `LocationProtocol.ConditionReportRequest`. -/
structure LocationProtocol.ConditionReportRequest where
  request_id : Nat
  radio_ip : RadioIp
  trigger_type : Nat
  distance : Nat
  start_time : Datetimestring
  stop_time : Datetimestring
  interval : Intervalstring
  max_interval : Intervalstring
  deriving DecidableEq

/-- okdmr/kaitai/hytera/location_protocol.py:157-165 `LocationProtocol.ConditionReportRequest._read`. -/
def LocationProtocol.ConditionReportRequest.read : Rd LocationProtocol.ConditionReportRequest := do
  let request_id ← readU4be
  let radio_ip ← RadioIp.read
  let trigger_type ← readU1
  let distance ← readU4be
  let start_time ← Datetimestring.read
  let stop_time ← Datetimestring.read
  let interval ← Intervalstring.read
  let max_interval ← Intervalstring.read
  return { request_id, radio_ip, trigger_type, distance, start_time, stop_time, interval, max_interval }

/-- okdmr/kaitai/hytera/location_protocol.py:246-252 attributes of `LocationProtocol.QuickGpsPayload`. -/
structure LocationProtocol.QuickGpsPayload where
  start_time : Datetimestring
  stop_time : Datetimestring
  interval : Intervalstring
  send_step : Nat
  channel_use_percentage : Nat
  send_order : Nat
  deriving DecidableEq

/-- okdmr/kaitai/hytera/location_protocol.py:246-252 `LocationProtocol.QuickGpsPayload._read`. -/
def LocationProtocol.QuickGpsPayload.read : Rd LocationProtocol.QuickGpsPayload := do
  let start_time ← Datetimestring.read
  let stop_time ← Datetimestring.read
  let interval ← Intervalstring.read
  let send_step ← readU2be
  let channel_use_percentage ← readU1
  let send_order ← readU2be
  return { start_time, stop_time, interval, send_step, channel_use_percentage, send_order }

/-- okdmr/kaitai/hytera/location_protocol.py:174-183 attributes of `LocationProtocol.ConditionQuickGpsRequest`. -/
structure LocationProtocol.ConditionQuickGpsRequest where
  request_id : Nat
  radio_ip : RadioIp
  cmd_type : EnumVal LocationProtocol.CmdTypes
  quick_gps_payload : Option (LocationProtocol.QuickGpsPayload)
  deriving DecidableEq

/-- okdmr/kaitai/hytera/location_protocol.py:174-183 `LocationProtocol.ConditionQuickGpsRequest._read`. -/
def LocationProtocol.ConditionQuickGpsRequest.read : Rd LocationProtocol.ConditionQuickGpsRequest := do
  let request_id ← readU4be
  let radio_ip ← RadioIp.read
  let cmd_type ← asEnum LocationProtocol.CmdTypes (readU1)
  let quick_gps_payload ← optionally (decide (cmd_type = .known .start_request)) (LocationProtocol.QuickGpsPayload.read)
  return { request_id, radio_ip, cmd_type, quick_gps_payload }

/-- okdmr/kaitai/hytera/location_protocol.py:192-195 attributes of `LocationProtocol.ConditionReport`. -/
structure LocationProtocol.ConditionReport where
  request_id : Nat
  radio_ip : RadioIp
  gpsdata : Gpsdata
  deriving DecidableEq

/-- okdmr/kaitai/hytera/location_protocol.py:192-195 `LocationProtocol.ConditionReport._read`. -/
def LocationProtocol.ConditionReport.read : Rd LocationProtocol.ConditionReport := do
  let request_id ← readU4be
  let radio_ip ← RadioIp.read
  let gpsdata ← Gpsdata.read
  return { request_id, radio_ip, gpsdata }

/-- okdmr/kaitai/hytera/location_protocol.py:204-207 attributes of `LocationProtocol.EmergencyReport`. -/
structure LocationProtocol.EmergencyReport where
  radio_ip : RadioIp
  emergency_type : Nat
  gpsdata : Gpsdata
  deriving DecidableEq

/-- okdmr/kaitai/hytera/location_protocol.py:204-207 `LocationProtocol.EmergencyReport._read`. -/
def LocationProtocol.EmergencyReport.read : Rd LocationProtocol.EmergencyReport := do
  let radio_ip ← RadioIp.read
  let emergency_type ← readU1
  let gpsdata ← Gpsdata.read
  return { radio_ip, emergency_type, gpsdata }

/-- okdmr/kaitai/hytera/location_protocol.py:216-221 attributes of `LocationProtocol.TriggeredReportAnswer`. -/
structure LocationProtocol.TriggeredReportAnswer where
  request_id : Nat
  radio_ip : RadioIp
  result : EnumVal LocationProtocol.ResultCodes
  deriving DecidableEq

/-- okdmr/kaitai/hytera/location_protocol.py:216-221 `LocationProtocol.TriggeredReportAnswer._read`. -/
def LocationProtocol.TriggeredReportAnswer.read : Rd LocationProtocol.TriggeredReportAnswer := do
  let request_id ← readU4be
  let radio_ip ← RadioIp.read
  let result ← asEnum LocationProtocol.ResultCodes (readU2be)
  return { request_id, radio_ip, result }

/-- okdmr/kaitai/hytera/location_protocol.py:230-237 attributes of `LocationProtocol.StandardAnswerWithRssi`. -/
structure LocationProtocol.StandardAnswerWithRssi where
  request_id : Nat
  radio_ip : RadioIp
  result : EnumVal LocationProtocol.ResultCodes
  gpsdata : Gpsdata
  rssi_value : Int
  deriving DecidableEq

/-- okdmr/kaitai/hytera/location_protocol.py:230-237 `LocationProtocol.StandardAnswerWithRssi._read`. -/
def LocationProtocol.StandardAnswerWithRssi.read : Rd LocationProtocol.StandardAnswerWithRssi := do
  let request_id ← readU4be
  let radio_ip ← RadioIp.read
  let result ← asEnum LocationProtocol.ResultCodes (readU2be)
  let gpsdata ← Gpsdata.read
  let rssi_value ← readS2be
  return { request_id, radio_ip, result, gpsdata, rssi_value }

/-- okdmr/kaitai/hytera/location_protocol.py:261-263 attributes of `LocationProtocol.StandardRequest`. -/
structure LocationProtocol.StandardRequest where
  request_id : Nat
  radio_ip : RadioIp
  deriving DecidableEq

/-- okdmr/kaitai/hytera/location_protocol.py:261-263 `LocationProtocol.StandardRequest._read`. -/
def LocationProtocol.StandardRequest.read : Rd LocationProtocol.StandardRequest := do
  let request_id ← readU4be
  let radio_ip ← RadioIp.read
  return { request_id, radio_ip }

/-- okdmr/kaitai/hytera/location_protocol.py:272-277 attributes of `LocationProtocol.TriggeredReportRequest`. -/
structure LocationProtocol.TriggeredReportRequest where
  request_id : Nat
  radio_ip : RadioIp
  start_time : Datetimestring
  stop_time : Datetimestring
  interval : Intervalstring
  deriving DecidableEq

/-- okdmr/kaitai/hytera/location_protocol.py:272-277 `LocationProtocol.TriggeredReportRequest._read`. -/
def LocationProtocol.TriggeredReportRequest.read : Rd LocationProtocol.TriggeredReportRequest := do
  let request_id ← readU4be
  let radio_ip ← RadioIp.read
  let start_time ← Datetimestring.read
  let stop_time ← Datetimestring.read
  let interval ← Intervalstring.read
  return { request_id, radio_ip, start_time, stop_time, interval }

/-- okdmr/kaitai/hytera/location_protocol.py:286-292 attributes of `LocationProtocol.StandardAnswer`. -/
structure LocationProtocol.StandardAnswer where
  request_id : Nat
  radio_ip : RadioIp
  result : EnumVal LocationProtocol.ResultCodes
  gpsdata : Gpsdata
  deriving DecidableEq

/-- okdmr/kaitai/hytera/location_protocol.py:286-292 `LocationProtocol.StandardAnswer._read`. -/
def LocationProtocol.StandardAnswer.read : Rd LocationProtocol.StandardAnswer := do
  let request_id ← readU4be
  let radio_ip ← RadioIp.read
  let result ← asEnum LocationProtocol.ResultCodes (readU2be)
  let gpsdata ← Gpsdata.read
  return { request_id, radio_ip, result, gpsdata }

/-- okdmr/kaitai/hytera/location_protocol.py:301-309 attributes of `LocationProtocol.ConditionReportAnswer`. -/
structure LocationProtocol.ConditionReportAnswer where
  request_id : Nat
  radio_ip : RadioIp
  trigger_type : EnumVal LocationProtocol.TriggerTypes
  result : EnumVal LocationProtocol.ResultCodes
  deriving DecidableEq

/-- okdmr/kaitai/hytera/location_protocol.py:301-309 `LocationProtocol.ConditionReportAnswer._read`. -/
def LocationProtocol.ConditionReportAnswer.read : Rd LocationProtocol.ConditionReportAnswer := do
  let request_id ← readU4be
  let radio_ip ← RadioIp.read
  let trigger_type ← asEnum LocationProtocol.TriggerTypes (readU1)
  let result ← asEnum LocationProtocol.ResultCodes (readU2be)
  return { request_id, radio_ip, trigger_type, result }

/-- okdmr/kaitai/hytera/location_protocol.py:318-320 attributes of `LocationProtocol.EmergencyReportStopRequest`. -/
structure LocationProtocol.EmergencyReportStopRequest where
  request_id : Nat
  radio_ip : RadioIp
  deriving DecidableEq

/-- okdmr/kaitai/hytera/location_protocol.py:318-320 `LocationProtocol.EmergencyReportStopRequest._read`. -/
def LocationProtocol.EmergencyReportStopRequest.read : Rd LocationProtocol.EmergencyReportStopRequest := do
  let request_id ← readU4be
  let radio_ip ← RadioIp.read
  return { request_id, radio_ip }

/-- okdmr/kaitai/hytera/location_protocol.py:329-337 attributes of `LocationProtocol.ConditionQuickGpsAnswer`. -/
structure LocationProtocol.ConditionQuickGpsAnswer where
  request_id : Nat
  radio_ip : RadioIp
  cmd_type : EnumVal LocationProtocol.CmdTypes
  result : EnumVal LocationProtocol.ResultCodes
  deriving DecidableEq

/-- okdmr/kaitai/hytera/location_protocol.py:329-337 `LocationProtocol.ConditionQuickGpsAnswer._read`. -/
def LocationProtocol.ConditionQuickGpsAnswer.read : Rd LocationProtocol.ConditionQuickGpsAnswer := do
  let request_id ← readU4be
  let radio_ip ← RadioIp.read
  let cmd_type ← asEnum LocationProtocol.CmdTypes (readU1)
  let result ← asEnum LocationProtocol.ResultCodes (readU2be)
  return { request_id, radio_ip, cmd_type, result }

/-- okdmr/kaitai/hytera/location_protocol.py:346-350 attributes of `LocationProtocol.TriggeredReport`. -/
structure LocationProtocol.TriggeredReport where
  request_id : Nat
  radio_ip : RadioIp
  time_remaining : Intervalstring
  gpsdata : Gpsdata
  deriving DecidableEq

/-- okdmr/kaitai/hytera/location_protocol.py:346-350 `LocationProtocol.TriggeredReport._read`. -/
def LocationProtocol.TriggeredReport.read : Rd LocationProtocol.TriggeredReport := do
  let request_id ← readU4be
  let radio_ip ← RadioIp.read
  let time_remaining ← Intervalstring.read
  let gpsdata ← Gpsdata.read
  return { request_id, radio_ip, time_remaining, gpsdata }

/-- okdmr/kaitai/hytera/location_protocol.py:359-366 attributes of `LocationProtocol.ConditionReportWithRssi`. -/
structure LocationProtocol.ConditionReportWithRssi where
  request_id : Nat
  radio_ip : RadioIp
  result : EnumVal LocationProtocol.ResultCodes
  gpsdata : Gpsdata
  rssi_value : Int
  deriving DecidableEq

/-- okdmr/kaitai/hytera/location_protocol.py:359-366 `LocationProtocol.ConditionReportWithRssi._read`. -/
def LocationProtocol.ConditionReportWithRssi.read : Rd LocationProtocol.ConditionReportWithRssi := do
  let request_id ← readU4be
  let radio_ip ← RadioIp.read
  let result ← asEnum LocationProtocol.ResultCodes (readU2be)
  let gpsdata ← Gpsdata.read
  let rssi_value ← readS2be
  return { request_id, radio_ip, result, gpsdata, rssi_value }

/-- okdmr/kaitai/hytera/location_protocol.py:375-380 attributes of `LocationProtocol.EmergencyReportStopAnswer`. -/
structure LocationProtocol.EmergencyReportStopAnswer where
  request_id : Nat
  radio_ip : RadioIp
  result : EnumVal LocationProtocol.ResultCodes
  deriving DecidableEq

/-- okdmr/kaitai/hytera/location_protocol.py:375-380 `LocationProtocol.EmergencyReportStopAnswer._read`. -/
def LocationProtocol.EmergencyReportStopAnswer.read : Rd LocationProtocol.EmergencyReportStopAnswer := do
  let request_id ← readU4be
  let radio_ip ← RadioIp.read
  let result ← asEnum LocationProtocol.ResultCodes (readU2be)
  return { request_id, radio_ip, result }

/-- okdmr/kaitai/hytera/location_protocol.py:389-391 attributes of `LocationProtocol.TriggeredReportStopRequest`. -/
structure LocationProtocol.TriggeredReportStopRequest where
  request_id : Nat
  radio_ip : RadioIp
  deriving DecidableEq

/-- okdmr/kaitai/hytera/location_protocol.py:389-391 `LocationProtocol.TriggeredReportStopRequest._read`. -/
def LocationProtocol.TriggeredReportStopRequest.read : Rd LocationProtocol.TriggeredReportStopRequest := do
  let request_id ← readU4be
  let radio_ip ← RadioIp.read
  return { request_id, radio_ip }

/-- okdmr/kaitai/hytera/location_protocol.py:78-134 possible objects in `LocationProtocol.data`. -/
inductive LocationProtocol.DataUnion where
  | triggeredReportAnswer (x : LocationProtocol.TriggeredReportAnswer)
  | emergencyReportStopRequest (x : LocationProtocol.EmergencyReportStopRequest)
  | conditionQuickGpsRequest (x : LocationProtocol.ConditionQuickGpsRequest)
  | conditionReport (x : LocationProtocol.ConditionReport)
  | emergencyReportStopAnswer (x : LocationProtocol.EmergencyReportStopAnswer)
  | conditionReportAnswer (x : LocationProtocol.ConditionReportAnswer)
  | standardAnswer (x : LocationProtocol.StandardAnswer)
  | standardRequest (x : LocationProtocol.StandardRequest)
  | triggeredReport (x : LocationProtocol.TriggeredReport)
  | triggeredReportStopAnswer (x : LocationProtocol.TriggeredReportStopAnswer)
  | standardAnswerWithRssi (x : LocationProtocol.StandardAnswerWithRssi)
  | conditionReportWithRssi (x : LocationProtocol.ConditionReportWithRssi)
  | triggeredReportStopRequest (x : LocationProtocol.TriggeredReportStopRequest)
  | emergencyReport (x : LocationProtocol.EmergencyReport)
  | conditionReportRequest (x : LocationProtocol.ConditionReportRequest)
  | triggeredReportRequest (x : LocationProtocol.TriggeredReportRequest)
  | conditionQuickGpsAnswer (x : LocationProtocol.ConditionQuickGpsAnswer)
  deriving DecidableEq

/-- okdmr/kaitai/hytera/location_protocol.py:77-134 the `if _on == ...` chain of `LocationProtocol._read`. -/
def LocationProtocol.readData (on : EnumVal LocationProtocol.LpSpecificTypes) : Rd (Option LocationProtocol.DataUnion) :=
  if on = .known .triggered_report_answer then do let x ← LocationProtocol.TriggeredReportAnswer.read; return some (.triggeredReportAnswer x)
  else if on = .known .emergency_report_stop_request then do let x ← LocationProtocol.EmergencyReportStopRequest.read; return some (.emergencyReportStopRequest x)
  else if on = .known .condition_quick_gps_request then do let x ← LocationProtocol.ConditionQuickGpsRequest.read; return some (.conditionQuickGpsRequest x)
  else if on = .known .condition_report then do let x ← LocationProtocol.ConditionReport.read; return some (.conditionReport x)
  else if on = .known .emergency_report_stop_answer then do let x ← LocationProtocol.EmergencyReportStopAnswer.read; return some (.emergencyReportStopAnswer x)
  else if on = .known .condition_report_answer then do let x ← LocationProtocol.ConditionReportAnswer.read; return some (.conditionReportAnswer x)
  else if on = .known .standard_answer then do let x ← LocationProtocol.StandardAnswer.read; return some (.standardAnswer x)
  else if on = .known .standard_request then do let x ← LocationProtocol.StandardRequest.read; return some (.standardRequest x)
  else if on = .known .triggered_report then do let x ← LocationProtocol.TriggeredReport.read; return some (.triggeredReport x)
  else if on = .known .triggered_report_stop_answer then do let x ← LocationProtocol.TriggeredReportStopAnswer.read; return some (.triggeredReportStopAnswer x)
  else if on = .known .standard_answer_with_rssi then do let x ← LocationProtocol.StandardAnswerWithRssi.read; return some (.standardAnswerWithRssi x)
  else if on = .known .condition_report_with_rssi then do let x ← LocationProtocol.ConditionReportWithRssi.read; return some (.conditionReportWithRssi x)
  else if on = .known .triggered_report_stop_request then do let x ← LocationProtocol.TriggeredReportStopRequest.read; return some (.triggeredReportStopRequest x)
  else if on = .known .emergency_report then do let x ← LocationProtocol.EmergencyReport.read; return some (.emergencyReport x)
  else if on = .known .condition_report_request then do let x ← LocationProtocol.ConditionReportRequest.read; return some (.conditionReportRequest x)
  else if on = .known .triggered_report_request then do let x ← LocationProtocol.TriggeredReportRequest.read; return some (.triggeredReportRequest x)
  else if on = .known .condition_quick_gps_answer then do let x ← LocationProtocol.ConditionQuickGpsAnswer.read; return some (.conditionQuickGpsAnswer x)
  else return none

/-- okdmr/kaitai/hytera/location_protocol.py:71-134 attributes of `LocationProtocol`. -/
structure LocationProtocol where
  opcode_header : EnumVal LocationProtocol.LpSpecificTypes
  message_length : Nat
  data : Option LocationProtocol.DataUnion
  deriving DecidableEq

/-- okdmr/kaitai/hytera/location_protocol.py:71-134 `LocationProtocol._read`. -/
def LocationProtocol.read : Rd LocationProtocol := do
  let opcode_header ← asEnum LocationProtocol.LpSpecificTypes (readU2be)
  let message_length ← readU2be
  let data ← LocationProtocol.readData opcode_header
  return { opcode_header, message_length, data }

/-- okdmr/kaitai/hytera/location_protocol.py:398-403 computation inside property `opcode` (hand-written): it seeks
to offset 0 of the stream the object was parsed from, whatever that stream is. -/
def LocationProtocol.computeOpcode : Rd (EnumVal LocationProtocol.LpGeneralTypes) := do
  let pos ← posIo
  seekIo 0
  let v ← asEnum LocationProtocol.LpGeneralTypes readU1
  seekIo pos
  return v

end Dmr.Hytera
