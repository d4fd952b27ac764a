import Verif.Model.Tools.PyVal
import Verif.Model.Hytera.RadioIp
import Verif.Model.Hytera.RadioId
import Verif.Model.Hytera.Gpsdata
import Verif.Model.Hytera.Datetimestring
import Verif.Model.Hytera.Intervalstring
import Verif.Model.Hytera.DataDeliveryStates
import Verif.Model.Hytera.DataTransmitProtocol
import Verif.Model.Hytera.LocationProtocol
import Verif.Model.Hytera.RadioControlProtocol
import Verif.Model.Hytera.RadioRegistrationService
import Verif.Model.Hytera.TelemetryProtocol
import Verif.Model.Hytera.TextMessageProtocol
import Verif.Model.Hytera.HyteraDmrApplicationProtocol
import Verif.Model.Hytera.HyteraRadioNetworkProtocol
import Verif.Model.Hytera.HyteraSimpleTransportReliabilityProtocol
import Verif.Model.Hytera.IpSiteConnectHeartbeat
import Verif.Model.Hytera.IpSiteConnectProtocol
import Verif.Model.Hytera.RealTimeTransportProtocol
import Verif.Model.Etsi.DmrCsbk
import Verif.Model.Etsi.DmrData
import Verif.Model.Etsi.DmrDataHeader
import Verif.Model.Etsi.DmrIpUdp
import Verif.Model.Etsi.FullLinkControl
import Verif.Model.Homebrew.Homebrew2015
import Verif.Model.Homebrew.Mmdvm2020
import Verif.Model.Motorola.AutomaticRegistrationService
import Verif.Model.Motorola.MotorolaBinaryXml
import Verif.Model.Motorola.TextMessageProtocol
/-
Generated by tools/mkpyview.py: every decoded object as a Python object, with its `__dict__` in assignment order.
-/

namespace Dmr.Hytera

/-- okdmr/kaitai/hytera/radio_ip.py:26-30 `RadioIp` as a Python object. -/
def RadioIp.toPy (x : RadioIp) : PyVal :=
  .object "Hytera.RadioIp"
    [PyVal.attr "subnet" (.int (Int.ofNat x.subnet)),
     PyVal.attr "radio_id_1" (.int (Int.ofNat x.radio_id_1)),
     PyVal.attr "radio_id_2" (.int (Int.ofNat x.radio_id_2)),
     PyVal.attr "radio_id_3" (.int (Int.ofNat x.radio_id_3))]

end Dmr.Hytera

namespace Dmr.Hytera

/-- okdmr/kaitai/hytera/radio_id.py:23-24 `RadioId` as a Python object. -/
def RadioId.toPy (x : RadioId) : PyVal :=
  .object "Hytera.RadioId"
    [PyVal.attr "radio_id_raw" (.int (Int.ofNat x.radio_id_raw))]

end Dmr.Hytera

namespace Dmr.Hytera

/-- okdmr/kaitai/hytera/gpsdata.py:21-30 `Gpsdata` as a Python object. -/
def Gpsdata.toPy (x : Gpsdata) : PyVal :=
  .object "Hytera.Gpsdata"
    [PyVal.attr "gps_status" (.bytes x.gps_status),
     PyVal.attr "gps_time" (.bytes x.gps_time),
     PyVal.attr "gps_date" (.bytes x.gps_date),
     PyVal.attr "north_south" (.bytes x.north_south),
     PyVal.attr "latitude" (.bytes x.latitude),
     PyVal.attr "east_west" (.bytes x.east_west),
     PyVal.attr "longitude" (.bytes x.longitude),
     PyVal.attr "speed" (.bytes x.speed),
     PyVal.attr "direction" (.bytes x.direction)]

end Dmr.Hytera

namespace Dmr.Hytera

/-- okdmr/kaitai/hytera/datetimestring.py:23-24 `Datetimestring` as a Python object. -/
def Datetimestring.toPy (x : Datetimestring) : PyVal :=
  .object "Hytera.Datetimestring"
    [PyVal.attr "datetime" (.str x.datetime)]

end Dmr.Hytera

namespace Dmr.Hytera

/-- okdmr/kaitai/hytera/intervalstring.py:23-24 `Intervalstring` as a Python object. -/
def Intervalstring.toPy (x : Intervalstring) : PyVal :=
  .object "Hytera.Intervalstring"
    [PyVal.attr "interval" (.str x.interval)]

end Dmr.Hytera

namespace Dmr.Hytera

/-- okdmr/kaitai/hytera/data_delivery_states.py:42-52 `DataDeliveryStates` as a Python object. -/
def DataDeliveryStates.toPy (x : DataDeliveryStates) : PyVal :=
  .object "Hytera.DataDeliveryStates"
    [PyVal.attr "reserved" (.bytes x.reserved),
     PyVal.attr "state_type" (EnumVal.toPy "StateTypes" x.state_type),
     PyVal.attr "message_length" (.int (Int.ofNat x.message_length)),
     PyVal.attr "radio_ip" (RadioIp.toPy x.radio_ip),
     PyVal.attr "protocol_opcode" (.int (Int.ofNat x.protocol_opcode)),
     PyVal.attr "result" (EnumVal.toPy "Results" x.result)]

end Dmr.Hytera

namespace Dmr.Hytera

/-- okdmr/kaitai/hytera/data_transmit_protocol.py:75-77 `DataTransmitProtocol.LastDataSlice` as a Python object. -/
def DataTransmitProtocol.LastDataSlice.toPy (x : DataTransmitProtocol.LastDataSlice) : PyVal :=
  .object "Hytera.DataTransmitProtocol.LastDataSlice"
    [PyVal.attr "destination_ip" (RadioIp.toPy x.destination_ip),
     PyVal.attr "source_ip" (RadioIp.toPy x.source_ip)]

/-- okdmr/kaitai/hytera/data_transmit_protocol.py:86-92 `DataTransmitProtocol.DtpRequest` as a Python object. -/
def DataTransmitProtocol.DtpRequest.toPy (x : DataTransmitProtocol.DtpRequest) : PyVal :=
  .object "Hytera.DataTransmitProtocol.DtpRequest"
    [PyVal.attr "destination_ip" (RadioIp.toPy x.destination_ip),
     PyVal.attr "source_ip" (RadioIp.toPy x.source_ip),
     PyVal.attr "file_size" (.int (Int.ofNat x.file_size)),
     PyVal.attr "file_name" (.str x.file_name)]

/-- okdmr/kaitai/hytera/data_transmit_protocol.py:101-107 `DataTransmitProtocol.DataSliceAnswer` as a Python object. -/
def DataTransmitProtocol.DataSliceAnswer.toPy (x : DataTransmitProtocol.DataSliceAnswer) : PyVal :=
  .object "Hytera.DataTransmitProtocol.DataSliceAnswer"
    [PyVal.attr "destination_ip" (RadioIp.toPy x.destination_ip),
     PyVal.attr "source_ip" (RadioIp.toPy x.source_ip),
     PyVal.attr "block_number" (.int (Int.ofNat x.block_number)),
     PyVal.attr "result" (EnumVal.toPy "Results" x.result)]

/-- okdmr/kaitai/hytera/data_transmit_protocol.py:116-120 `DataTransmitProtocol.DataSliceTransmit` as a Python object. -/
def DataTransmitProtocol.DataSliceTransmit.toPy (x : DataTransmitProtocol.DataSliceTransmit) : PyVal :=
  .object "Hytera.DataTransmitProtocol.DataSliceTransmit"
    [PyVal.attr "destination_ip" (RadioIp.toPy x.destination_ip),
     PyVal.attr "source_ip" (RadioIp.toPy x.source_ip),
     PyVal.attr "block_number" (.int (Int.ofNat x.block_number)),
     PyVal.attr "file_data" (.bytes x.file_data)]

/-- okdmr/kaitai/hytera/data_transmit_protocol.py:129-134 `DataTransmitProtocol.LastDataSliceAnswer` as a Python object. -/
def DataTransmitProtocol.LastDataSliceAnswer.toPy (x : DataTransmitProtocol.LastDataSliceAnswer) : PyVal :=
  .object "Hytera.DataTransmitProtocol.LastDataSliceAnswer"
    [PyVal.attr "destination_ip" (RadioIp.toPy x.destination_ip),
     PyVal.attr "source_ip" (RadioIp.toPy x.source_ip),
     PyVal.attr "result" (EnumVal.toPy "Results" x.result)]

/-- okdmr/kaitai/hytera/data_transmit_protocol.py:143-148 `DataTransmitProtocol.DtpAnswer` as a Python object. -/
def DataTransmitProtocol.DtpAnswer.toPy (x : DataTransmitProtocol.DtpAnswer) : PyVal :=
  .object "Hytera.DataTransmitProtocol.DtpAnswer"
    [PyVal.attr "destination_ip" (RadioIp.toPy x.destination_ip),
     PyVal.attr "source_ip" (RadioIp.toPy x.source_ip),
     PyVal.attr "result" (EnumVal.toPy "Results" x.result)]

/-- okdmr/kaitai/hytera/data_transmit_protocol.py:50-64 the object in the union. -/
def DataTransmitProtocol.DataUnion.toPy : DataTransmitProtocol.DataUnion → PyVal
  | .dtpRequest x => DataTransmitProtocol.DtpRequest.toPy x
  | .dataSliceTransmit x => DataTransmitProtocol.DataSliceTransmit.toPy x
  | .dataSliceAnswer x => DataTransmitProtocol.DataSliceAnswer.toPy x
  | .lastDataSliceAnswer x => DataTransmitProtocol.LastDataSliceAnswer.toPy x
  | .dtpAnswer x => DataTransmitProtocol.DtpAnswer.toPy x
  | .lastDataSlice x => DataTransmitProtocol.LastDataSlice.toPy x

/-- okdmr/kaitai/hytera/data_transmit_protocol.py:40-64 `DataTransmitProtocol` as a Python object. -/
def DataTransmitProtocol.toPy (x : DataTransmitProtocol) : PyVal :=
  .object "Hytera.DataTransmitProtocol"
    [PyVal.attr "service_type" (EnumVal.toPy "ServiceTypes" x.service_type),
     PyVal.attr "service_specific_type" (EnumVal.toPy "ServiceSpecificTypes" x.service_specific_type),
     PyVal.attr "message_length" (.int (Int.ofNat x.message_length)),
     PyVal.optAttr "data" (x.data.map fun y => DataTransmitProtocol.DataUnion.toPy y)]

end Dmr.Hytera

namespace Dmr.Hytera

/-- okdmr/kaitai/hytera/location_protocol.py:143-148 `LocationProtocol.TriggeredReportStopAnswer` as a Python object. -/
def LocationProtocol.TriggeredReportStopAnswer.toPy (x : LocationProtocol.TriggeredReportStopAnswer) : PyVal :=
  .object "Hytera.LocationProtocol.TriggeredReportStopAnswer"
    [PyVal.attr "request_id" (.int (Int.ofNat x.request_id)),
     PyVal.attr "radio_ip" (RadioIp.toPy x.radio_ip),
     PyVal.attr "result" (EnumVal.toPy "ResultCodes" x.result)]

/-- okdmr/kaitai/hytera/location_protocol.py:157-165 `LocationProtocol.ConditionReportRequest` as a Python object. -/
def LocationProtocol.ConditionReportRequest.toPy (x : LocationProtocol.ConditionReportRequest) : PyVal :=
  .object "Hytera.LocationProtocol.ConditionReportRequest"
    [PyVal.attr "request_id" (.int (Int.ofNat x.request_id)),
     PyVal.attr "radio_ip" (RadioIp.toPy x.radio_ip),
     PyVal.attr "trigger_type" (.int (Int.ofNat x.trigger_type)),
     PyVal.attr "distance" (.int (Int.ofNat x.distance)),
     PyVal.attr "start_time" (Datetimestring.toPy x.start_time),
     PyVal.attr "stop_time" (Datetimestring.toPy x.stop_time),
     PyVal.attr "interval" (Intervalstring.toPy x.interval),
     PyVal.attr "max_interval" (Intervalstring.toPy x.max_interval)]

/-- okdmr/kaitai/hytera/location_protocol.py:246-252 `LocationProtocol.QuickGpsPayload` as a Python object. -/
def LocationProtocol.QuickGpsPayload.toPy (x : LocationProtocol.QuickGpsPayload) : PyVal :=
  .object "Hytera.LocationProtocol.QuickGpsPayload"
    [PyVal.attr "start_time" (Datetimestring.toPy x.start_time),
     PyVal.attr "stop_time" (Datetimestring.toPy x.stop_time),
     PyVal.attr "interval" (Intervalstring.toPy x.interval),
     PyVal.attr "send_step" (.int (Int.ofNat x.send_step)),
     PyVal.attr "channel_use_percentage" (.int (Int.ofNat x.channel_use_percentage)),
     PyVal.attr "send_order" (.int (Int.ofNat x.send_order))]

/-- okdmr/kaitai/hytera/location_protocol.py:174-183 `LocationProtocol.ConditionQuickGpsRequest` as a Python object. -/
def LocationProtocol.ConditionQuickGpsRequest.toPy (x : LocationProtocol.ConditionQuickGpsRequest) : PyVal :=
  .object "Hytera.LocationProtocol.ConditionQuickGpsRequest"
    [PyVal.attr "request_id" (.int (Int.ofNat x.request_id)),
     PyVal.attr "radio_ip" (RadioIp.toPy x.radio_ip),
     PyVal.attr "cmd_type" (EnumVal.toPy "CmdTypes" x.cmd_type),
     PyVal.optAttr "quick_gps_payload" (x.quick_gps_payload.map fun y => LocationProtocol.QuickGpsPayload.toPy y)]

/-- okdmr/kaitai/hytera/location_protocol.py:192-195 `LocationProtocol.ConditionReport` as a Python object. -/
def LocationProtocol.ConditionReport.toPy (x : LocationProtocol.ConditionReport) : PyVal :=
  .object "Hytera.LocationProtocol.ConditionReport"
    [PyVal.attr "request_id" (.int (Int.ofNat x.request_id)),
     PyVal.attr "radio_ip" (RadioIp.toPy x.radio_ip),
     PyVal.attr "gpsdata" (Gpsdata.toPy x.gpsdata)]

/-- okdmr/kaitai/hytera/location_protocol.py:204-207 `LocationProtocol.EmergencyReport` as a Python object. -/
def LocationProtocol.EmergencyReport.toPy (x : LocationProtocol.EmergencyReport) : PyVal :=
  .object "Hytera.LocationProtocol.EmergencyReport"
    [PyVal.attr "radio_ip" (RadioIp.toPy x.radio_ip),
     PyVal.attr "emergency_type" (.int (Int.ofNat x.emergency_type)),
     PyVal.attr "gpsdata" (Gpsdata.toPy x.gpsdata)]

/-- okdmr/kaitai/hytera/location_protocol.py:216-221 `LocationProtocol.TriggeredReportAnswer` as a Python object. -/
def LocationProtocol.TriggeredReportAnswer.toPy (x : LocationProtocol.TriggeredReportAnswer) : PyVal :=
  .object "Hytera.LocationProtocol.TriggeredReportAnswer"
    [PyVal.attr "request_id" (.int (Int.ofNat x.request_id)),
     PyVal.attr "radio_ip" (RadioIp.toPy x.radio_ip),
     PyVal.attr "result" (EnumVal.toPy "ResultCodes" x.result)]

/-- okdmr/kaitai/hytera/location_protocol.py:230-237 `LocationProtocol.StandardAnswerWithRssi` as a Python object. -/
def LocationProtocol.StandardAnswerWithRssi.toPy (x : LocationProtocol.StandardAnswerWithRssi) : PyVal :=
  .object "Hytera.LocationProtocol.StandardAnswerWithRssi"
    [PyVal.attr "request_id" (.int (Int.ofNat x.request_id)),
     PyVal.attr "radio_ip" (RadioIp.toPy x.radio_ip),
     PyVal.attr "result" (EnumVal.toPy "ResultCodes" x.result),
     PyVal.attr "gpsdata" (Gpsdata.toPy x.gpsdata),
     PyVal.attr "rssi_value" (.int x.rssi_value)]

/-- okdmr/kaitai/hytera/location_protocol.py:261-263 `LocationProtocol.StandardRequest` as a Python object. -/
def LocationProtocol.StandardRequest.toPy (x : LocationProtocol.StandardRequest) : PyVal :=
  .object "Hytera.LocationProtocol.StandardRequest"
    [PyVal.attr "request_id" (.int (Int.ofNat x.request_id)),
     PyVal.attr "radio_ip" (RadioIp.toPy x.radio_ip)]

/-- okdmr/kaitai/hytera/location_protocol.py:272-277 `LocationProtocol.TriggeredReportRequest` as a Python object. -/
def LocationProtocol.TriggeredReportRequest.toPy (x : LocationProtocol.TriggeredReportRequest) : PyVal :=
  .object "Hytera.LocationProtocol.TriggeredReportRequest"
    [PyVal.attr "request_id" (.int (Int.ofNat x.request_id)),
     PyVal.attr "radio_ip" (RadioIp.toPy x.radio_ip),
     PyVal.attr "start_time" (Datetimestring.toPy x.start_time),
     PyVal.attr "stop_time" (Datetimestring.toPy x.stop_time),
     PyVal.attr "interval" (Intervalstring.toPy x.interval)]

/-- okdmr/kaitai/hytera/location_protocol.py:286-292 `LocationProtocol.StandardAnswer` as a Python object. -/
def LocationProtocol.StandardAnswer.toPy (x : LocationProtocol.StandardAnswer) : PyVal :=
  .object "Hytera.LocationProtocol.StandardAnswer"
    [PyVal.attr "request_id" (.int (Int.ofNat x.request_id)),
     PyVal.attr "radio_ip" (RadioIp.toPy x.radio_ip),
     PyVal.attr "result" (EnumVal.toPy "ResultCodes" x.result),
     PyVal.attr "gpsdata" (Gpsdata.toPy x.gpsdata)]

/-- okdmr/kaitai/hytera/location_protocol.py:301-309 `LocationProtocol.ConditionReportAnswer` as a Python object. -/
def LocationProtocol.ConditionReportAnswer.toPy (x : LocationProtocol.ConditionReportAnswer) : PyVal :=
  .object "Hytera.LocationProtocol.ConditionReportAnswer"
    [PyVal.attr "request_id" (.int (Int.ofNat x.request_id)),
     PyVal.attr "radio_ip" (RadioIp.toPy x.radio_ip),
     PyVal.attr "trigger_type" (EnumVal.toPy "TriggerTypes" x.trigger_type),
     PyVal.attr "result" (EnumVal.toPy "ResultCodes" x.result)]

/-- okdmr/kaitai/hytera/location_protocol.py:318-320 `LocationProtocol.EmergencyReportStopRequest` as a Python object. -/
def LocationProtocol.EmergencyReportStopRequest.toPy (x : LocationProtocol.EmergencyReportStopRequest) : PyVal :=
  .object "Hytera.LocationProtocol.EmergencyReportStopRequest"
    [PyVal.attr "request_id" (.int (Int.ofNat x.request_id)),
     PyVal.attr "radio_ip" (RadioIp.toPy x.radio_ip)]

/-- okdmr/kaitai/hytera/location_protocol.py:329-337 `LocationProtocol.ConditionQuickGpsAnswer` as a Python object. -/
def LocationProtocol.ConditionQuickGpsAnswer.toPy (x : LocationProtocol.ConditionQuickGpsAnswer) : PyVal :=
  .object "Hytera.LocationProtocol.ConditionQuickGpsAnswer"
    [PyVal.attr "request_id" (.int (Int.ofNat x.request_id)),
     PyVal.attr "radio_ip" (RadioIp.toPy x.radio_ip),
     PyVal.attr "cmd_type" (EnumVal.toPy "CmdTypes" x.cmd_type),
     PyVal.attr "result" (EnumVal.toPy "ResultCodes" x.result)]

/-- okdmr/kaitai/hytera/location_protocol.py:346-350 `LocationProtocol.TriggeredReport` as a Python object. -/
def LocationProtocol.TriggeredReport.toPy (x : LocationProtocol.TriggeredReport) : PyVal :=
  .object "Hytera.LocationProtocol.TriggeredReport"
    [PyVal.attr "request_id" (.int (Int.ofNat x.request_id)),
     PyVal.attr "radio_ip" (RadioIp.toPy x.radio_ip),
     PyVal.attr "time_remaining" (Intervalstring.toPy x.time_remaining),
     PyVal.attr "gpsdata" (Gpsdata.toPy x.gpsdata)]

/-- okdmr/kaitai/hytera/location_protocol.py:359-366 `LocationProtocol.ConditionReportWithRssi` as a Python object. -/
def LocationProtocol.ConditionReportWithRssi.toPy (x : LocationProtocol.ConditionReportWithRssi) : PyVal :=
  .object "Hytera.LocationProtocol.ConditionReportWithRssi"
    [PyVal.attr "request_id" (.int (Int.ofNat x.request_id)),
     PyVal.attr "radio_ip" (RadioIp.toPy x.radio_ip),
     PyVal.attr "result" (EnumVal.toPy "ResultCodes" x.result),
     PyVal.attr "gpsdata" (Gpsdata.toPy x.gpsdata),
     PyVal.attr "rssi_value" (.int x.rssi_value)]

/-- okdmr/kaitai/hytera/location_protocol.py:375-380 `LocationProtocol.EmergencyReportStopAnswer` as a Python object. -/
def LocationProtocol.EmergencyReportStopAnswer.toPy (x : LocationProtocol.EmergencyReportStopAnswer) : PyVal :=
  .object "Hytera.LocationProtocol.EmergencyReportStopAnswer"
    [PyVal.attr "request_id" (.int (Int.ofNat x.request_id)),
     PyVal.attr "radio_ip" (RadioIp.toPy x.radio_ip),
     PyVal.attr "result" (EnumVal.toPy "ResultCodes" x.result)]

/-- okdmr/kaitai/hytera/location_protocol.py:389-391 `LocationProtocol.TriggeredReportStopRequest` as a Python object. -/
def LocationProtocol.TriggeredReportStopRequest.toPy (x : LocationProtocol.TriggeredReportStopRequest) : PyVal :=
  .object "Hytera.LocationProtocol.TriggeredReportStopRequest"
    [PyVal.attr "request_id" (.int (Int.ofNat x.request_id)),
     PyVal.attr "radio_ip" (RadioIp.toPy x.radio_ip)]

/-- okdmr/kaitai/hytera/location_protocol.py:78-134 the object in the union. -/
def LocationProtocol.DataUnion.toPy : LocationProtocol.DataUnion → PyVal
  | .triggeredReportAnswer x => LocationProtocol.TriggeredReportAnswer.toPy x
  | .emergencyReportStopRequest x => LocationProtocol.EmergencyReportStopRequest.toPy x
  | .conditionQuickGpsRequest x => LocationProtocol.ConditionQuickGpsRequest.toPy x
  | .conditionReport x => LocationProtocol.ConditionReport.toPy x
  | .emergencyReportStopAnswer x => LocationProtocol.EmergencyReportStopAnswer.toPy x
  | .conditionReportAnswer x => LocationProtocol.ConditionReportAnswer.toPy x
  | .standardAnswer x => LocationProtocol.StandardAnswer.toPy x
  | .standardRequest x => LocationProtocol.StandardRequest.toPy x
  | .triggeredReport x => LocationProtocol.TriggeredReport.toPy x
  | .triggeredReportStopAnswer x => LocationProtocol.TriggeredReportStopAnswer.toPy x
  | .standardAnswerWithRssi x => LocationProtocol.StandardAnswerWithRssi.toPy x
  | .conditionReportWithRssi x => LocationProtocol.ConditionReportWithRssi.toPy x
  | .triggeredReportStopRequest x => LocationProtocol.TriggeredReportStopRequest.toPy x
  | .emergencyReport x => LocationProtocol.EmergencyReport.toPy x
  | .conditionReportRequest x => LocationProtocol.ConditionReportRequest.toPy x
  | .triggeredReportRequest x => LocationProtocol.TriggeredReportRequest.toPy x
  | .conditionQuickGpsAnswer x => LocationProtocol.ConditionQuickGpsAnswer.toPy x

/-- okdmr/kaitai/hytera/location_protocol.py:71-134 `LocationProtocol` as a Python object. -/
def LocationProtocol.toPy (x : LocationProtocol) : PyVal :=
  .object "Hytera.LocationProtocol"
    [PyVal.attr "opcode_header" (EnumVal.toPy "LpSpecificTypes" x.opcode_header),
     PyVal.attr "message_length" (.int (Int.ofNat x.message_length)),
     PyVal.optAttr "data" (x.data.map fun y => LocationProtocol.DataUnion.toPy y)]

end Dmr.Hytera

namespace Dmr.Hytera

/-- okdmr/kaitai/hytera/radio_control_protocol.py:146-149 `RadioControlProtocol.BroadcastStatusConfigurationReply` as a Python object. -/
def RadioControlProtocol.BroadcastStatusConfigurationReply.toPy (x : RadioControlProtocol.BroadcastStatusConfigurationReply) : PyVal :=
  .object "Hytera.RadioControlProtocol.BroadcastStatusConfigurationReply"
    [PyVal.attr "result" (EnumVal.toPy "ReplyResults" x.result)]

/-- okdmr/kaitai/hytera/radio_control_protocol.py:158-160 `RadioControlProtocol.BroadcastConfiguration` as a Python object. -/
def RadioControlProtocol.BroadcastConfiguration.toPy (x : RadioControlProtocol.BroadcastConfiguration) : PyVal :=
  .object "Hytera.RadioControlProtocol.BroadcastConfiguration"
    [PyVal.attr "config_operation" (.int (Int.ofNat x.config_operation)),
     PyVal.attr "config_target" (.int (Int.ofNat x.config_target))]

/-- okdmr/kaitai/hytera/radio_control_protocol.py:171-179 `RadioControlProtocol.BroadcastStatusConfigurationRequest` as a Python object. -/
def RadioControlProtocol.BroadcastStatusConfigurationRequest.toPy (x : RadioControlProtocol.BroadcastStatusConfigurationRequest) : PyVal :=
  .object "Hytera.RadioControlProtocol.BroadcastStatusConfigurationRequest"
    [PyVal.attr "num_broadcast_configuration" (.int (Int.ofNat x.num_broadcast_configuration)),
     PyVal.attr "broadcast_configuration" (.list (List.map (fun y => RadioControlProtocol.BroadcastConfiguration.toPy y) x.broadcast_configuration))]

/-- okdmr/kaitai/hytera/radio_control_protocol.py:188-196 `RadioControlProtocol.RadioIdentificationReply` as a Python object. -/
def RadioControlProtocol.RadioIdentificationReply.toPy (x : RadioControlProtocol.RadioIdentificationReply) : PyVal :=
  .object "Hytera.RadioControlProtocol.RadioIdentificationReply"
    [PyVal.optAttr "header" (x.header.map fun y => .bytes y),
     PyVal.optAttr "text" (x.text.map fun y => .str y),
     PyVal.optAttr "footer" (x.footer.map fun y => .bytes y)]

/-- okdmr/kaitai/hytera/radio_control_protocol.py:205-206 `RadioControlProtocol.GenericData` as a Python object. -/
def RadioControlProtocol.GenericData.toPy (x : RadioControlProtocol.GenericData) : PyVal :=
  .object "Hytera.RadioControlProtocol.GenericData"
    [PyVal.attr "data" (.bytes x.data)]

/-- okdmr/kaitai/hytera/radio_control_protocol.py:215-219 `RadioControlProtocol.CallRequest` as a Python object. -/
def RadioControlProtocol.CallRequest.toPy (x : RadioControlProtocol.CallRequest) : PyVal :=
  .object "Hytera.RadioControlProtocol.CallRequest"
    [PyVal.attr "call_type" (EnumVal.toPy "CallTypes" x.call_type),
     PyVal.attr "target_id" (.int (Int.ofNat x.target_id))]

/-- okdmr/kaitai/hytera/radio_control_protocol.py:230-233 `RadioControlProtocol.RemoveRadioReply` as a Python object. -/
def RadioControlProtocol.RemoveRadioReply.toPy (x : RadioControlProtocol.RemoveRadioReply) : PyVal :=
  .object "Hytera.RadioControlProtocol.RemoveRadioReply"
    [PyVal.attr "result" (EnumVal.toPy "ReplyResults" x.result)]

/-- okdmr/kaitai/hytera/radio_control_protocol.py:246-247 `RadioControlProtocol.RemoveRadioRequest` as a Python object. -/
def RadioControlProtocol.RemoveRadioRequest.toPy (_x : RadioControlProtocol.RemoveRadioRequest) : PyVal :=
  .object "Hytera.RadioControlProtocol.RemoveRadioRequest" []

/-- okdmr/kaitai/hytera/radio_control_protocol.py:256-259 `RadioControlProtocol.CallReply` as a Python object. -/
def RadioControlProtocol.CallReply.toPy (x : RadioControlProtocol.CallReply) : PyVal :=
  .object "Hytera.RadioControlProtocol.CallReply"
    [PyVal.attr "result" (EnumVal.toPy "ReplyResults" x.result)]

/-- okdmr/kaitai/hytera/radio_control_protocol.py:107-137 the object in the union. -/
def RadioControlProtocol.DataUnion.toPy : RadioControlProtocol.DataUnion → PyVal
  | .callReply x => RadioControlProtocol.CallReply.toPy x
  | .radioIdentificationReply x => RadioControlProtocol.RadioIdentificationReply.toPy x
  | .broadcastStatusConfigurationRequest x => RadioControlProtocol.BroadcastStatusConfigurationRequest.toPy x
  | .callRequest x => RadioControlProtocol.CallRequest.toPy x
  | .removeRadioRequest x => RadioControlProtocol.RemoveRadioRequest.toPy x
  | .broadcastStatusConfigurationReply x => RadioControlProtocol.BroadcastStatusConfigurationReply.toPy x
  | .removeRadioReply x => RadioControlProtocol.RemoveRadioReply.toPy x
  | .genericData x => RadioControlProtocol.GenericData.toPy x

/-- okdmr/kaitai/hytera/radio_control_protocol.py:100-137 `RadioControlProtocol` as a Python object. -/
def RadioControlProtocol.toPy (x : RadioControlProtocol) : PyVal :=
  .object "Hytera.RadioControlProtocol"
    [PyVal.attr "service_type" (EnumVal.toPy "ServiceTypes" x.service_type),
     PyVal.attr "message_length" (.int (Int.ofNat x.message_length)),
     PyVal.attr "data" (RadioControlProtocol.DataUnion.toPy x.data)]

end Dmr.Hytera

namespace Dmr.Hytera

/-- okdmr/kaitai/hytera/radio_registration_service.py:32-49 `RadioRegistrationService` as a Python object. -/
def RadioRegistrationService.toPy (x : RadioRegistrationService) : PyVal :=
  .object "Hytera.RadioRegistrationService"
    [PyVal.attr "opcode" (.bytes x.opcode),
     PyVal.attr "rrs_type" (EnumVal.toPy "RrsTypes" x.rrs_type),
     PyVal.attr "message_length" (.int (Int.ofNat x.message_length)),
     PyVal.attr "radio_ip" (RadioIp.toPy x.radio_ip),
     PyVal.optAttr "result" (x.result.map fun y => .int (Int.ofNat y)),
     PyVal.optAttr "valid_time" (x.valid_time.map fun y => .int (Int.ofNat y))]

end Dmr.Hytera

namespace Dmr.Hytera

/-- okdmr/kaitai/hytera/telemetry_protocol.py:94-106 `TelemetryProtocol.StandardStatusReport` as a Python object. -/
def TelemetryProtocol.StandardStatusReport.toPy (x : TelemetryProtocol.StandardStatusReport) : PyVal :=
  .object "Hytera.TelemetryProtocol.StandardStatusReport"
    [PyVal.attr "source_ip" (RadioIp.toPy x.source_ip),
     PyVal.attr "target_ip" (RadioIp.toPy x.target_ip),
     PyVal.attr "pc_flag" (EnumVal.toPy "PcFlagTypes" x.pc_flag),
     PyVal.attr "call_type" (EnumVal.toPy "CallTypes" x.call_type),
     PyVal.attr "vio_select" (.bytes x.vio_select),
     PyVal.attr "result" (EnumVal.toPy "ResultTypes" x.result)]

/-- okdmr/kaitai/hytera/telemetry_protocol.py:115-120 `TelemetryProtocol.VioExtendedStatus` as a Python object. -/
def TelemetryProtocol.VioExtendedStatus.toPy (x : TelemetryProtocol.VioExtendedStatus) : PyVal :=
  .object "Hytera.TelemetryProtocol.VioExtendedStatus"
    [PyVal.attr "result" (EnumVal.toPy "ResultTypes" x.result),
     PyVal.attr "message_length" (.int (Int.ofNat x.message_length)),
     PyVal.attr "message" (.str x.message)]

/-- okdmr/kaitai/hytera/telemetry_protocol.py:129-141 `TelemetryProtocol.RemoteControlAnswer` as a Python object. -/
def TelemetryProtocol.RemoteControlAnswer.toPy (x : TelemetryProtocol.RemoteControlAnswer) : PyVal :=
  .object "Hytera.TelemetryProtocol.RemoteControlAnswer"
    [PyVal.attr "source_ip" (RadioIp.toPy x.source_ip),
     PyVal.attr "target_ip" (RadioIp.toPy x.target_ip),
     PyVal.attr "pc_flag" (EnumVal.toPy "PcFlagTypes" x.pc_flag),
     PyVal.attr "call_type" (EnumVal.toPy "CallTypes" x.call_type),
     PyVal.attr "vio_select" (.bytes x.vio_select),
     PyVal.attr "result" (EnumVal.toPy "ControlResultTypes" x.result)]

/-- okdmr/kaitai/hytera/telemetry_protocol.py:150-162 `TelemetryProtocol.RemoteControlRequest` as a Python object. -/
def TelemetryProtocol.RemoteControlRequest.toPy (x : TelemetryProtocol.RemoteControlRequest) : PyVal :=
  .object "Hytera.TelemetryProtocol.RemoteControlRequest"
    [PyVal.attr "source_ip" (RadioIp.toPy x.source_ip),
     PyVal.attr "target_ip" (RadioIp.toPy x.target_ip),
     PyVal.attr "pc_flag" (EnumVal.toPy "PcFlagTypes" x.pc_flag),
     PyVal.attr "call_type" (EnumVal.toPy "CallTypes" x.call_type),
     PyVal.attr "vio_select" (.bytes x.vio_select),
     PyVal.attr "operation" (EnumVal.toPy "OperationTypes" x.operation)]

/-- okdmr/kaitai/hytera/telemetry_protocol.py:171-183 `TelemetryProtocol.ExtendedStatusReport` as a Python object. -/
def TelemetryProtocol.ExtendedStatusReport.toPy (x : TelemetryProtocol.ExtendedStatusReport) : PyVal :=
  .object "Hytera.TelemetryProtocol.ExtendedStatusReport"
    [PyVal.attr "source_ip" (RadioIp.toPy x.source_ip),
     PyVal.attr "target_ip" (RadioIp.toPy x.target_ip),
     PyVal.attr "pc_flag" (EnumVal.toPy "PcFlagTypes" x.pc_flag),
     PyVal.attr "call_type" (EnumVal.toPy "CallTypes" x.call_type),
     PyVal.attr "vio_select" (.bytes x.vio_select),
     PyVal.attr "result_messages" (TelemetryProtocol.VioExtendedStatus.toPy x.result_messages)]

/-- okdmr/kaitai/hytera/telemetry_protocol.py:192-201 `TelemetryProtocol.StandardStatusRequest` as a Python object. -/
def TelemetryProtocol.StandardStatusRequest.toPy (x : TelemetryProtocol.StandardStatusRequest) : PyVal :=
  .object "Hytera.TelemetryProtocol.StandardStatusRequest"
    [PyVal.attr "source_ip" (RadioIp.toPy x.source_ip),
     PyVal.attr "target_ip" (RadioIp.toPy x.target_ip),
     PyVal.attr "pc_flag" (EnumVal.toPy "PcFlagTypes" x.pc_flag),
     PyVal.attr "call_type" (EnumVal.toPy "CallTypes" x.call_type),
     PyVal.attr "vio_select" (.bytes x.vio_select)]

/-- okdmr/kaitai/hytera/telemetry_protocol.py:66-85 the object in the union. -/
def TelemetryProtocol.DataUnion.toPy : TelemetryProtocol.DataUnion → PyVal
  | .standardStatusRequest x => TelemetryProtocol.StandardStatusRequest.toPy x
  | .remoteControlAnswer x => TelemetryProtocol.RemoteControlAnswer.toPy x
  | .extendedStatusReport x => TelemetryProtocol.ExtendedStatusReport.toPy x
  | .remoteControlRequest x => TelemetryProtocol.RemoteControlRequest.toPy x
  | .standardStatusReport x => TelemetryProtocol.StandardStatusReport.toPy x

/-- okdmr/kaitai/hytera/telemetry_protocol.py:59-85 `TelemetryProtocol` as a Python object. -/
def TelemetryProtocol.toPy (x : TelemetryProtocol) : PyVal :=
  .object "Hytera.TelemetryProtocol"
    [PyVal.attr "service_type_opcode" (EnumVal.toPy "ServiceTypes" x.service_type_opcode),
     PyVal.attr "specific_service_opcode" (.int (Int.ofNat x.specific_service_opcode)),
     PyVal.attr "message_length" (.int (Int.ofNat x.message_length)),
     PyVal.attr "_m_specific_service" (EnumVal.toPy "ServiceSpecificTypes" x.m_specific_service),
     PyVal.optAttr "data" (x.data.map fun y => TelemetryProtocol.DataUnion.toPy y)]

end Dmr.Hytera

namespace Dmr.Hytera

/-- okdmr/kaitai/hytera/text_message_protocol.py:53-96 `TextMessageProtocol` as a Python object. -/
def TextMessageProtocol.toPy (x : TextMessageProtocol) : PyVal :=
  .object "Hytera.TextMessageProtocol"
    [PyVal.attr "ack_flag" (EnumVal.toPy "AckFlags" x.ack_flag),
     PyVal.attr "option_flag" (EnumVal.toPy "OptionFlags" x.option_flag),
     PyVal.attr "reserved" (.int (Int.ofNat x.reserved)),
     PyVal.attr "service_type" (EnumVal.toPy "ServiceTypes" x.service_type),
     PyVal.attr "message_length" (.int (Int.ofNat x.message_length)),
     PyVal.optAttr "option_field_len" (x.option_field_len.map fun y => .int (Int.ofNat y)),
     PyVal.attr "request_id" (.int (Int.ofNat x.request_id)),
     PyVal.attr "destination_ip" (RadioIp.toPy x.destination_ip),
     PyVal.optAttr "source_ip" (x.source_ip.map fun y => RadioIp.toPy y),
     PyVal.optAttr "result" (x.result.map fun y => EnumVal.toPy "ResultCodes" y),
     PyVal.optAttr "_m_option_sum_len" (x.tmdata.map fun _ => .int (match x.option_field_len with | some n => Int.ofNat n + 2 | .none => 0)),
     PyVal.optAttr "tmdata" (x.tmdata.map fun y => .str y),
     PyVal.optAttr "option_field" (x.option_field.map fun y => .str y)]

end Dmr.Hytera

namespace Dmr.Hytera

/-- okdmr/kaitai/hytera/hytera_dmr_application_protocol.py:86-87 `HyteraDmrApplicationProtocol.UndefinedProtocol` as a Python object. -/
def HyteraDmrApplicationProtocol.UndefinedProtocol.toPy (x : HyteraDmrApplicationProtocol.UndefinedProtocol) : PyVal :=
  .object "Hytera.HyteraDmrApplicationProtocol.UndefinedProtocol"
    [PyVal.attr "data" (.bytes x.data)]

/-- okdmr/kaitai/hytera/hytera_dmr_application_protocol.py:49-71 the object in the union. -/
def HyteraDmrApplicationProtocol.DataUnion.toPy : HyteraDmrApplicationProtocol.DataUnion → PyVal
  | .radioRegistrationService x => RadioRegistrationService.toPy x
  | .telemetryProtocol x => TelemetryProtocol.toPy x
  | .radioControlProtocol x => RadioControlProtocol.toPy x
  | .textMessageProtocol x => TextMessageProtocol.toPy x
  | .dataDeliveryStates x => DataDeliveryStates.toPy x
  | .locationProtocol x => LocationProtocol.toPy x
  | .dataTransmitProtocol x => DataTransmitProtocol.toPy x

/-- okdmr/kaitai/hytera/hytera_dmr_application_protocol.py:40-77 `HyteraDmrApplicationProtocol` as a Python object. -/
def HyteraDmrApplicationProtocol.toPy (x : HyteraDmrApplicationProtocol) : PyVal :=
  .object "Hytera.HyteraDmrApplicationProtocol"
    [PyVal.attr "is_reliable_message" (.bool x.is_reliable_message),
     PyVal.attr "message_header" (EnumVal.toPy "MessageHeaderTypes" x.message_header),
     PyVal.optAttr "data" (x.data.map fun y => HyteraDmrApplicationProtocol.DataUnion.toPy y),
     PyVal.attr "checksum" (.int (Int.ofNat x.checksum)),
     PyVal.attr "message_footer" (.bytes x.message_footer)]

end Dmr.Hytera

namespace Dmr.Hytera

/-- okdmr/kaitai/hytera/hytera_radio_network_protocol.py:34-53 `HyteraRadioNetworkProtocol` as a Python object. -/
def HyteraRadioNetworkProtocol.toPy (x : HyteraRadioNetworkProtocol) : PyVal :=
  .object "Hytera.HyteraRadioNetworkProtocol"
    [PyVal.attr "header_identifier" (.bytes x.header_identifier),
     PyVal.attr "version" (.int (Int.ofNat x.version)),
     PyVal.attr "block" (.int (Int.ofNat x.block)),
     PyVal.attr "opcode" (EnumVal.toPy "Opcodes" x.opcode),
     PyVal.attr "source_id" (.int (Int.ofNat x.source_id)),
     PyVal.attr "destination_id" (.int (Int.ofNat x.destination_id)),
     PyVal.attr "packet_number" (.int (Int.ofNat x.packet_number)),
     PyVal.attr "hrnp_packet_length" (.int (Int.ofNat x.hrnp_packet_length)),
     PyVal.attr "checksum" (.int (Int.ofNat x.checksum)),
     PyVal.optAttr "data" (x.data.map fun y => HyteraDmrApplicationProtocol.toPy y)]

end Dmr.Hytera

namespace Dmr.Hytera

/-- okdmr/kaitai/hytera/hytera_simple_transport_reliability_protocol.py:88-96 `HyteraSimpleTransportReliabilityProtocol.Option` as a Python object. -/
def HyteraSimpleTransportReliabilityProtocol.Option.toPy (x : HyteraSimpleTransportReliabilityProtocol.Option) : PyVal :=
  .object "Hytera.HyteraSimpleTransportReliabilityProtocol.Option"
    [PyVal.attr "expect_more_options" (.bool x.expect_more_options),
     PyVal.attr "command" (EnumVal.toPy "OptionCommands" x.command),
     PyVal.attr "len_option_payload" (.int (Int.ofNat x.len_option_payload)),
     PyVal.attr "option_payload" (.bytes x.option_payload)]

/-- okdmr/kaitai/hytera/hytera_simple_transport_reliability_protocol.py:30-79 `HyteraSimpleTransportReliabilityProtocol` as a Python object. -/
def HyteraSimpleTransportReliabilityProtocol.toPy (x : HyteraSimpleTransportReliabilityProtocol) : PyVal :=
  .object "Hytera.HyteraSimpleTransportReliabilityProtocol"
    [PyVal.attr "header" (.bytes x.header),
     PyVal.attr "version" (.int (Int.ofNat x.version)),
     PyVal.attr "reserved" (.int (Int.ofNat x.reserved)),
     PyVal.attr "has_option" (.bool x.has_option),
     PyVal.attr "is_reject" (.bool x.is_reject),
     PyVal.attr "is_close" (.bool x.is_close),
     PyVal.attr "is_connect" (.bool x.is_connect),
     PyVal.attr "is_heartbeat" (.bool x.is_heartbeat),
     PyVal.attr "is_ack" (.bool x.is_ack),
     PyVal.attr "sequence_number" (.int (Int.ofNat x.sequence_number)),
     PyVal.optAttr "options" (x.options.map fun y => .list (List.map (fun y => HyteraSimpleTransportReliabilityProtocol.Option.toPy y) y)),
     PyVal.optAttr "data" (x.data.map fun y => .list (List.map (fun y => HyteraDmrApplicationProtocol.toPy y) y)),
     PyVal.optAttr "extra_data" (x.extra_data.map fun y => .bytes y)]

end Dmr.Hytera

namespace Dmr.Hytera

/-- okdmr/kaitai/hytera/ip_site_connect_heartbeat.py:39-44 `IpSiteConnectHeartbeat.Keepalive` as a Python object. -/
def IpSiteConnectHeartbeat.Keepalive.toPy (x : IpSiteConnectHeartbeat.Keepalive) : PyVal :=
  .object "Hytera.IpSiteConnectHeartbeat.Keepalive"
    [PyVal.attr "nullbyte" (.bytes x.nullbyte)]

/-- okdmr/kaitai/hytera/ip_site_connect_heartbeat.py:53-80 `IpSiteConnectHeartbeat.PingPong` as a Python object. -/
def IpSiteConnectHeartbeat.PingPong.toPy (x : IpSiteConnectHeartbeat.PingPong) : PyVal :=
  .object "Hytera.IpSiteConnectHeartbeat.PingPong"
    [PyVal.attr "header" (.bytes x.header),
     PyVal.attr "heartbeat_identitier" (.bytes x.heartbeat_identitier),
     PyVal.attr "nullbytes" (.bytes x.nullbytes),
     PyVal.attr "heartbeat_seq" (.int (Int.ofNat x.heartbeat_seq)),
     PyVal.attr "tail" (.bytes x.tail)]

/-- okdmr/kaitai/hytera/ip_site_connect_heartbeat.py:89-90 `IpSiteConnectHeartbeat.Unknown` as a Python object. -/
def IpSiteConnectHeartbeat.Unknown.toPy (x : IpSiteConnectHeartbeat.Unknown) : PyVal :=
  .object "Hytera.IpSiteConnectHeartbeat.Unknown"
    [PyVal.attr "data" (.bytes x.data)]

/-- okdmr/kaitai/hytera/ip_site_connect_heartbeat.py:26-30 the object in the union. -/
def IpSiteConnectHeartbeat.DataUnion.toPy : IpSiteConnectHeartbeat.DataUnion → PyVal
  | .keepalive x => IpSiteConnectHeartbeat.Keepalive.toPy x
  | .pingPong x => IpSiteConnectHeartbeat.PingPong.toPy x
  | .unknown x => IpSiteConnectHeartbeat.Unknown.toPy x

/-- okdmr/kaitai/hytera/ip_site_connect_heartbeat.py:23-30 `IpSiteConnectHeartbeat` as a Python object. -/
def IpSiteConnectHeartbeat.toPy (x : IpSiteConnectHeartbeat) : PyVal :=
  .object "Hytera.IpSiteConnectHeartbeat"
    [PyVal.attr "data" (IpSiteConnectHeartbeat.DataUnion.toPy x.data)]

end Dmr.Hytera

namespace Dmr.Hytera

/-- okdmr/kaitai/hytera/ip_site_connect_protocol.py:65-98 `IpSiteConnectProtocol` as a Python object. -/
def IpSiteConnectProtocol.toPy (x : IpSiteConnectProtocol) : PyVal :=
  .object "Hytera.IpSiteConnectProtocol"
    [PyVal.attr "source_port" (.bytes x.source_port),
     PyVal.attr "fixed_header" (.bytes x.fixed_header),
     PyVal.attr "sequence_number" (.int (Int.ofNat x.sequence_number)),
     PyVal.attr "reserved_3" (.bytes x.reserved_3),
     PyVal.attr "packet_type" (EnumVal.toPy "PacketTypes" x.packet_type),
     PyVal.attr "reserved_7a" (.bytes x.reserved_7a),
     PyVal.attr "timeslot_raw" (EnumVal.toPy "Timeslots" x.timeslot_raw),
     PyVal.attr "slot_type" (EnumVal.toPy "SlotTypes" x.slot_type),
     PyVal.attr "color_code_raw" (.int (Int.ofNat x.color_code_raw)),
     PyVal.attr "frame_type" (EnumVal.toPy "FrameTypes" x.frame_type),
     PyVal.attr "reserved_2a" (.bytes x.reserved_2a),
     PyVal.attr "ipsc_payload" (.bytes x.ipsc_payload),
     PyVal.attr "reserved_2b" (.bytes x.reserved_2b),
     PyVal.attr "call_type" (EnumVal.toPy "CallTypes" x.call_type),
     PyVal.attr "destination_radio_id_raw" (.int (Int.ofNat x.destination_radio_id_raw)),
     PyVal.attr "source_radio_id_raw" (.int (Int.ofNat x.source_radio_id_raw)),
     PyVal.attr "reserved_1b" (.int (Int.ofNat x.reserved_1b)),
     PyVal.optAttr "extra_data" (x.extra_data.map fun y => .bytes y)]

end Dmr.Hytera

namespace Dmr.Hytera

/-- okdmr/kaitai/hytera/real_time_transport_protocol.py:57-74 `RealTimeTransportProtocol.FixedHeader` as a Python object. -/
def RealTimeTransportProtocol.FixedHeader.toPy (x : RealTimeTransportProtocol.FixedHeader) : PyVal :=
  .object "Hytera.RealTimeTransportProtocol.FixedHeader"
    [PyVal.attr "version" (.int (Int.ofNat x.version)),
     PyVal.attr "padding" (.bool x.padding),
     PyVal.attr "extension" (.bool x.extension),
     PyVal.attr "num_csrc" (.int (Int.ofNat x.num_csrc)),
     PyVal.attr "marker" (.bool x.marker),
     PyVal.attr "payload_type" (.int (Int.ofNat x.payload_type)),
     PyVal.attr "sequence_number" (.int (Int.ofNat x.sequence_number)),
     PyVal.attr "timestamp" (.int (Int.ofNat x.timestamp)),
     PyVal.attr "ssrc" (.int (Int.ofNat x.ssrc)),
     PyVal.attr "csrc" (.list (List.map (fun y => .int (Int.ofNat y)) x.csrc))]

/-- okdmr/kaitai/hytera/real_time_transport_protocol.py:83-94 `RealTimeTransportProtocol.HeaderExtension` as a Python object. -/
def RealTimeTransportProtocol.HeaderExtension.toPy (x : RealTimeTransportProtocol.HeaderExtension) : PyVal :=
  .object "Hytera.RealTimeTransportProtocol.HeaderExtension"
    [PyVal.attr "header_identifier" (.int (Int.ofNat x.header_identifier)),
     PyVal.attr "length" (.int (Int.ofNat x.length)),
     PyVal.attr "slot" (.int (Int.ofNat x.slot)),
     PyVal.attr "last_flag" (.bool x.last_flag),
     PyVal.attr "source_id" (RadioId.toPy x.source_id),
     PyVal.attr "destination_id" (RadioId.toPy x.destination_id),
     PyVal.attr "call_type" (EnumVal.toPy "CallTypes" x.call_type),
     PyVal.attr "reserved" (.bytes x.reserved)]

/-- okdmr/kaitai/hytera/real_time_transport_protocol.py:35-48 `RealTimeTransportProtocol` as a Python object. -/
def RealTimeTransportProtocol.toPy (x : RealTimeTransportProtocol) : PyVal :=
  .object "Hytera.RealTimeTransportProtocol"
    [PyVal.attr "fixed_header" (RealTimeTransportProtocol.FixedHeader.toPy x.fixed_header),
     PyVal.optAttr "header_extension" (x.header_extension.map fun y => RealTimeTransportProtocol.HeaderExtension.toPy y),
     PyVal.optAttr "_m_len_padding_if_exists" (if x.fixed_header.padding then some (.int (Int.ofNat x.m_len_padding)) else .none),
     PyVal.attr "_m_len_padding" (.int (Int.ofNat x.m_len_padding)),
     PyVal.attr "audio_data" (.bytes x.audio_data),
     PyVal.optAttr "padding" (x.padding.map fun y => .bytes y)]

end Dmr.Hytera

namespace Dmr.Etsi

/-- okdmr/kaitai/etsi/dmr_csbk.py:79-85 `DmrCsbk.NegativeAckResponseData` as a Python object. -/
def DmrCsbk.NegativeAckResponseData.toPy (x : DmrCsbk.NegativeAckResponseData) : PyVal :=
  .object "Etsi.DmrCsbk.NegativeAckResponseData"
    [PyVal.attr "additional_information_field" (.bool x.additional_information_field),
     PyVal.attr "source_type" (.bool x.source_type),
     PyVal.attr "service_type" (.int (Int.ofNat x.service_type)),
     PyVal.attr "reason_code" (.int (Int.ofNat x.reason_code)),
     PyVal.attr "source_address" (.int (Int.ofNat x.source_address)),
     PyVal.attr "target_address" (.int (Int.ofNat x.target_address))]

/-- okdmr/kaitai/etsi/dmr_csbk.py:107-113 `DmrCsbk.ServiceOptions` as a Python object. -/
def DmrCsbk.ServiceOptions.toPy (x : DmrCsbk.ServiceOptions) : PyVal :=
  .object "Etsi.DmrCsbk.ServiceOptions"
    [PyVal.attr "is_emergency_service" (.bool x.is_emergency_service),
     PyVal.attr "privacy" (.bool x.privacy),
     PyVal.attr "reserved" (.int (Int.ofNat x.reserved)),
     PyVal.attr "is_broadcast_service" (.bool x.is_broadcast_service),
     PyVal.attr "is_open_voice_call_mode" (.bool x.is_open_voice_call_mode),
     PyVal.attr "priority_level" (.int (Int.ofNat x.priority_level))]

/-- okdmr/kaitai/etsi/dmr_csbk.py:94-98 `DmrCsbk.UnitToUnitVoiceRequestData` as a Python object. -/
def DmrCsbk.UnitToUnitVoiceRequestData.toPy (x : DmrCsbk.UnitToUnitVoiceRequestData) : PyVal :=
  .object "Etsi.DmrCsbk.UnitToUnitVoiceRequestData"
    [PyVal.attr "service_options" (DmrCsbk.ServiceOptions.toPy x.service_options),
     PyVal.attr "reserved" (.int (Int.ofNat x.reserved)),
     PyVal.attr "target_address" (.int (Int.ofNat x.target_address)),
     PyVal.attr "source_address" (.int (Int.ofNat x.source_address))]

/-- okdmr/kaitai/etsi/dmr_csbk.py:122-132 `DmrCsbk.PreambleData` as a Python object. -/
def DmrCsbk.PreambleData.toPy (x : DmrCsbk.PreambleData) : PyVal :=
  .object "Etsi.DmrCsbk.PreambleData"
    [PyVal.attr "preamble_data_or_csbk" (EnumVal.toPy "CsbkDataOrCsbk" x.preamble_data_or_csbk),
     PyVal.attr "group_or_individual" (EnumVal.toPy "CsbkGroupOrIndividual" x.group_or_individual),
     PyVal.attr "preamble_reserved" (.int (Int.ofNat x.preamble_reserved)),
     PyVal.attr "preamble_csbk_blocks_to_follow" (.int (Int.ofNat x.preamble_csbk_blocks_to_follow)),
     PyVal.attr "target_address" (.int (Int.ofNat x.target_address)),
     PyVal.attr "source_address" (.int (Int.ofNat x.source_address))]

/-- okdmr/kaitai/etsi/dmr_csbk.py:141-151 `DmrCsbk.ChannelTimingData` as a Python object. -/
def DmrCsbk.ChannelTimingData.toPy (x : DmrCsbk.ChannelTimingData) : PyVal :=
  .object "Etsi.DmrCsbk.ChannelTimingData"
    [PyVal.attr "sync_age" (.int (Int.ofNat x.sync_age)),
     PyVal.attr "generation" (.int (Int.ofNat x.generation)),
     PyVal.attr "leader_identifier" (.int (Int.ofNat x.leader_identifier)),
     PyVal.attr "new_leader" (.bool x.new_leader),
     PyVal.attr "leader_dynamic_identifier" (.int (Int.ofNat x.leader_dynamic_identifier)),
     PyVal.attr "channel_timing_op1" (.bool x.channel_timing_op1),
     PyVal.attr "source_identifier" (.int (Int.ofNat x.source_identifier)),
     PyVal.attr "reserved" (.bool x.reserved),
     PyVal.attr "source_dynamic_identifier" (.int (Int.ofNat x.source_dynamic_identifier)),
     PyVal.attr "channel_timing_op0" (.bool x.channel_timing_op0)]

/-- okdmr/kaitai/etsi/dmr_csbk.py:160-163 `DmrCsbk.BsOutboundActivationData` as a Python object. -/
def DmrCsbk.BsOutboundActivationData.toPy (x : DmrCsbk.BsOutboundActivationData) : PyVal :=
  .object "Etsi.DmrCsbk.BsOutboundActivationData"
    [PyVal.attr "reserved" (.int (Int.ofNat x.reserved)),
     PyVal.attr "bs_address" (.int (Int.ofNat x.bs_address)),
     PyVal.attr "source_address" (.int (Int.ofNat x.source_address))]

/-- okdmr/kaitai/etsi/dmr_csbk.py:172-178 `DmrCsbk.UnitToUnitVoiceAnswerData` as a Python object. -/
def DmrCsbk.UnitToUnitVoiceAnswerData.toPy (x : DmrCsbk.UnitToUnitVoiceAnswerData) : PyVal :=
  .object "Etsi.DmrCsbk.UnitToUnitVoiceAnswerData"
    [PyVal.attr "service_options" (DmrCsbk.ServiceOptions.toPy x.service_options),
     PyVal.attr "answer_response" (EnumVal.toPy "AnswerResponse" x.answer_response),
     PyVal.attr "target_address" (.int (Int.ofNat x.target_address)),
     PyVal.attr "source_address" (.int (Int.ofNat x.source_address))]

/-- okdmr/kaitai/etsi/dmr_csbk.py:54-70 the object in the union. -/
def DmrCsbk.CsbkDataUnion.toPy : DmrCsbk.CsbkDataUnion → PyVal
  | .unitToUnitVoiceAnswerData x => DmrCsbk.UnitToUnitVoiceAnswerData.toPy x
  | .preambleData x => DmrCsbk.PreambleData.toPy x
  | .channelTimingData x => DmrCsbk.ChannelTimingData.toPy x
  | .unitToUnitVoiceRequestData x => DmrCsbk.UnitToUnitVoiceRequestData.toPy x
  | .bsOutboundActivationData x => DmrCsbk.BsOutboundActivationData.toPy x
  | .negativeAckResponseData x => DmrCsbk.NegativeAckResponseData.toPy x

/-- okdmr/kaitai/etsi/dmr_csbk.py:44-70 `DmrCsbk` as a Python object. -/
def DmrCsbk.toPy (x : DmrCsbk) : PyVal :=
  .object "Etsi.DmrCsbk"
    [PyVal.attr "last_block" (.bool x.last_block),
     PyVal.attr "protect_flag" (.bool x.protect_flag),
     PyVal.attr "csbk_opcode" (EnumVal.toPy "CsbkoTypes" x.csbk_opcode),
     PyVal.attr "feature_set_id" (.int (Int.ofNat x.feature_set_id)),
     PyVal.optAttr "csbk_data" (x.csbk_data.map fun y => DmrCsbk.CsbkDataUnion.toPy y)]

end Dmr.Etsi

namespace Dmr.Etsi

/-- okdmr/kaitai/etsi/dmr_data.py:35-37 `DmrData.Rate1LastBlockUnconfirmed` as a Python object. -/
def DmrData.Rate1LastBlockUnconfirmed.toPy (x : DmrData.Rate1LastBlockUnconfirmed) : PyVal :=
  .object "Etsi.DmrData.Rate1LastBlockUnconfirmed"
    [PyVal.attr "user_data" (.bytes x.user_data),
     PyVal.attr "message_crc32" (.bytes x.message_crc32)]

/-- okdmr/kaitai/etsi/dmr_data.py:48-53 `DmrData.Rate12LastBlockConfirmed` as a Python object. -/
def DmrData.Rate12LastBlockConfirmed.toPy (x : DmrData.Rate12LastBlockConfirmed) : PyVal :=
  .object "Etsi.DmrData.Rate12LastBlockConfirmed"
    [PyVal.attr "data_block_serial_number" (.int (Int.ofNat x.data_block_serial_number)),
     PyVal.attr "crc9" (.int (Int.ofNat x.crc9)),
     PyVal.attr "user_data" (.bytes x.user_data),
     PyVal.attr "message_crc32" (.bytes x.message_crc32)]

/-- okdmr/kaitai/etsi/dmr_data.py:64-68 `DmrData.Rate12Confirmed` as a Python object. -/
def DmrData.Rate12Confirmed.toPy (x : DmrData.Rate12Confirmed) : PyVal :=
  .object "Etsi.DmrData.Rate12Confirmed"
    [PyVal.attr "data_block_serial_number" (.int (Int.ofNat x.data_block_serial_number)),
     PyVal.attr "crc9" (.int (Int.ofNat x.crc9)),
     PyVal.attr "user_data" (.bytes x.user_data)]

/-- okdmr/kaitai/etsi/dmr_data.py:79-81 `DmrData.Rate34LastBlockUnconfirmed` as a Python object. -/
def DmrData.Rate34LastBlockUnconfirmed.toPy (x : DmrData.Rate34LastBlockUnconfirmed) : PyVal :=
  .object "Etsi.DmrData.Rate34LastBlockUnconfirmed"
    [PyVal.attr "user_data" (.bytes x.user_data),
     PyVal.attr "message_crc32" (.bytes x.message_crc32)]

/-- okdmr/kaitai/etsi/dmr_data.py:92-97 `DmrData.Rate1LastBlockConfirmed` as a Python object. -/
def DmrData.Rate1LastBlockConfirmed.toPy (x : DmrData.Rate1LastBlockConfirmed) : PyVal :=
  .object "Etsi.DmrData.Rate1LastBlockConfirmed"
    [PyVal.attr "data_block_serial_number" (.int (Int.ofNat x.data_block_serial_number)),
     PyVal.attr "crc9" (.int (Int.ofNat x.crc9)),
     PyVal.attr "user_data" (.bytes x.user_data),
     PyVal.attr "message_crc32" (.bytes x.message_crc32)]

/-- okdmr/kaitai/etsi/dmr_data.py:108-109 `DmrData.Rate1Unconfirmed` as a Python object. -/
def DmrData.Rate1Unconfirmed.toPy (x : DmrData.Rate1Unconfirmed) : PyVal :=
  .object "Etsi.DmrData.Rate1Unconfirmed"
    [PyVal.attr "user_data" (.bytes x.user_data)]

/-- okdmr/kaitai/etsi/dmr_data.py:120-122 `DmrData.UdtLastBlock` as a Python object. -/
def DmrData.UdtLastBlock.toPy (x : DmrData.UdtLastBlock) : PyVal :=
  .object "Etsi.DmrData.UdtLastBlock"
    [PyVal.attr "user_data" (.bytes x.user_data),
     PyVal.attr "message_crc16" (.bytes x.message_crc16)]

/-- okdmr/kaitai/etsi/dmr_data.py:133-137 `DmrData.Rate34Confirmed` as a Python object. -/
def DmrData.Rate34Confirmed.toPy (x : DmrData.Rate34Confirmed) : PyVal :=
  .object "Etsi.DmrData.Rate34Confirmed"
    [PyVal.attr "data_block_serial_number" (.int (Int.ofNat x.data_block_serial_number)),
     PyVal.attr "crc9" (.int (Int.ofNat x.crc9)),
     PyVal.attr "user_data" (.bytes x.user_data)]

/-- okdmr/kaitai/etsi/dmr_data.py:148-153 `DmrData.Rate34LastBlockConfirmed` as a Python object. -/
def DmrData.Rate34LastBlockConfirmed.toPy (x : DmrData.Rate34LastBlockConfirmed) : PyVal :=
  .object "Etsi.DmrData.Rate34LastBlockConfirmed"
    [PyVal.attr "data_block_serial_number" (.int (Int.ofNat x.data_block_serial_number)),
     PyVal.attr "crc9" (.int (Int.ofNat x.crc9)),
     PyVal.attr "user_data" (.bytes x.user_data),
     PyVal.attr "message_crc32" (.bytes x.message_crc32)]

/-- okdmr/kaitai/etsi/dmr_data.py:164-165 `DmrData.Rate34Unconfirmed` as a Python object. -/
def DmrData.Rate34Unconfirmed.toPy (x : DmrData.Rate34Unconfirmed) : PyVal :=
  .object "Etsi.DmrData.Rate34Unconfirmed"
    [PyVal.attr "user_data" (.bytes x.user_data)]

/-- okdmr/kaitai/etsi/dmr_data.py:176-178 `DmrData.Rate12LastBlockUnconfirmed` as a Python object. -/
def DmrData.Rate12LastBlockUnconfirmed.toPy (x : DmrData.Rate12LastBlockUnconfirmed) : PyVal :=
  .object "Etsi.DmrData.Rate12LastBlockUnconfirmed"
    [PyVal.attr "user_data" (.bytes x.user_data),
     PyVal.attr "message_crc32" (.bytes x.message_crc32)]

/-- okdmr/kaitai/etsi/dmr_data.py:189-193 `DmrData.Rate1Confirmed` as a Python object. -/
def DmrData.Rate1Confirmed.toPy (x : DmrData.Rate1Confirmed) : PyVal :=
  .object "Etsi.DmrData.Rate1Confirmed"
    [PyVal.attr "data_block_serial_number" (.int (Int.ofNat x.data_block_serial_number)),
     PyVal.attr "crc9" (.int (Int.ofNat x.crc9)),
     PyVal.attr "user_data" (.bytes x.user_data)]

/-- okdmr/kaitai/etsi/dmr_data.py:204-205 `DmrData.Rate12Unconfirmed` as a Python object. -/
def DmrData.Rate12Unconfirmed.toPy (x : DmrData.Rate12Unconfirmed) : PyVal :=
  .object "Etsi.DmrData.Rate12Unconfirmed"
    [PyVal.attr "user_data" (.bytes x.user_data)]

/-- okdmr/kaitai/etsi/dmr_data.py:23-24 `DmrData` as a Python object. -/
def DmrData.toPy (_x : DmrData) : PyVal :=
  .object "Etsi.DmrData" []

end Dmr.Etsi

namespace Dmr.Etsi

/-- okdmr/kaitai/etsi/dmr_data_header.py:130-149 `DmrDataHeader.DataHeaderShortRaw` as a Python object. -/
def DmrDataHeader.DataHeaderShortRaw.toPy (x : DmrDataHeader.DataHeaderShortRaw) : PyVal :=
  .object "Etsi.DmrDataHeader.DataHeaderShortRaw"
    [PyVal.attr "llid_destination_is_group" (.bool x.llid_destination_is_group),
     PyVal.attr "response_requested" (.bool x.response_requested),
     PyVal.attr "appended_blocks_msb" (.int (Int.ofNat x.appended_blocks_msb)),
     PyVal.attr "format" (EnumVal.toPy "DataPacketFormats" x.format),
     PyVal.attr "sap_identifier" (EnumVal.toPy "SapIdentifiers" x.sap_identifier),
     PyVal.attr "appended_blocks_lsb" (.int (Int.ofNat x.appended_blocks_lsb)),
     PyVal.attr "llid_destination" (.int (Int.ofNat x.llid_destination)),
     PyVal.attr "llid_source" (.int (Int.ofNat x.llid_source)),
     PyVal.attr "source_port" (.int (Int.ofNat x.source_port)),
     PyVal.attr "destination_port" (.int (Int.ofNat x.destination_port)),
     PyVal.attr "selective_automatic_repeat_request" (.bool x.selective_automatic_repeat_request),
     PyVal.attr "full_message_flag" (.bool x.full_message_flag),
     PyVal.attr "bit_padding" (.int (Int.ofNat x.bit_padding)),
     PyVal.attr "crc" (.bytes x.crc)]

/-- okdmr/kaitai/etsi/dmr_data_header.py:170-180 `DmrDataHeader.DataHeaderProprietary` as a Python object. -/
def DmrDataHeader.DataHeaderProprietary.toPy (x : DmrDataHeader.DataHeaderProprietary) : PyVal :=
  .object "Etsi.DmrDataHeader.DataHeaderProprietary"
    [PyVal.attr "sap_identifier" (EnumVal.toPy "SapIdentifiers" x.sap_identifier),
     PyVal.attr "format" (EnumVal.toPy "DataPacketFormats" x.format),
     PyVal.attr "mfid" (.int (Int.ofNat x.mfid)),
     PyVal.attr "proprietary_data" (.bytes x.proprietary_data),
     PyVal.attr "crc" (.bytes x.crc)]

/-- okdmr/kaitai/etsi/dmr_data_header.py:189-190 `DmrDataHeader.DataHeaderUndefined` as a Python object. -/
def DmrDataHeader.DataHeaderUndefined.toPy (x : DmrDataHeader.DataHeaderUndefined) : PyVal :=
  .object "Etsi.DmrDataHeader.DataHeaderUndefined"
    [PyVal.attr "bytedata" (.bytes x.bytedata)]

/-- okdmr/kaitai/etsi/dmr_data_header.py:201-218 `DmrDataHeader.DataHeaderShortStatusPrecoded` as a Python object. -/
def DmrDataHeader.DataHeaderShortStatusPrecoded.toPy (x : DmrDataHeader.DataHeaderShortStatusPrecoded) : PyVal :=
  .object "Etsi.DmrDataHeader.DataHeaderShortStatusPrecoded"
    [PyVal.attr "llid_destination_is_group" (.bool x.llid_destination_is_group),
     PyVal.attr "response_requested" (.bool x.response_requested),
     PyVal.attr "appended_blocks_msb" (.int (Int.ofNat x.appended_blocks_msb)),
     PyVal.attr "format" (EnumVal.toPy "DataPacketFormats" x.format),
     PyVal.attr "sap_identifier" (EnumVal.toPy "SapIdentifiers" x.sap_identifier),
     PyVal.attr "appended_blocks_lsb" (.int (Int.ofNat x.appended_blocks_lsb)),
     PyVal.attr "llid_destination" (.int (Int.ofNat x.llid_destination)),
     PyVal.attr "llid_source" (.int (Int.ofNat x.llid_source)),
     PyVal.attr "source_port" (.int (Int.ofNat x.source_port)),
     PyVal.attr "destination_port" (.int (Int.ofNat x.destination_port)),
     PyVal.attr "status_precoded" (.int (Int.ofNat x.status_precoded)),
     PyVal.attr "crc" (.bytes x.crc)]

/-- okdmr/kaitai/etsi/dmr_data_header.py:239-260 `DmrDataHeader.DataHeaderResponse` as a Python object. -/
def DmrDataHeader.DataHeaderResponse.toPy (x : DmrDataHeader.DataHeaderResponse) : PyVal :=
  .object "Etsi.DmrDataHeader.DataHeaderResponse"
    [PyVal.attr "reserved1" (.bool x.reserved1),
     PyVal.attr "response_requested" (.bool x.response_requested),
     PyVal.attr "reserved2" (.int (Int.ofNat x.reserved2)),
     PyVal.attr "format" (EnumVal.toPy "DataPacketFormats" x.format),
     PyVal.attr "sap_identifier" (EnumVal.toPy "SapIdentifiers" x.sap_identifier),
     PyVal.attr "reserved3" (.int (Int.ofNat x.reserved3)),
     PyVal.attr "llid_destination" (.int (Int.ofNat x.llid_destination)),
     PyVal.attr "llid_source" (.int (Int.ofNat x.llid_source)),
     PyVal.attr "full_message_flag" (.bool x.full_message_flag),
     PyVal.attr "blocks_to_follow" (.int (Int.ofNat x.blocks_to_follow)),
     PyVal.attr "response_class" (EnumVal.toPy "ResponsePacketClasses" x.response_class),
     PyVal.attr "response_type" (.int (Int.ofNat x.response_type)),
     PyVal.attr "response_status" (.int (Int.ofNat x.response_status)),
     PyVal.attr "crc" (.bytes x.crc)]

/-- okdmr/kaitai/etsi/dmr_data_header.py:271-291 `DmrDataHeader.DataHeaderConfirmed` as a Python object. -/
def DmrDataHeader.DataHeaderConfirmed.toPy (x : DmrDataHeader.DataHeaderConfirmed) : PyVal :=
  .object "Etsi.DmrDataHeader.DataHeaderConfirmed"
    [PyVal.attr "llid_destination_is_group" (.bool x.llid_destination_is_group),
     PyVal.attr "response_requested" (.bool x.response_requested),
     PyVal.attr "reserved1" (.bool x.reserved1),
     PyVal.attr "pad_octet_count_msb" (.bool x.pad_octet_count_msb),
     PyVal.attr "format" (EnumVal.toPy "DataPacketFormats" x.format),
     PyVal.attr "sap_identifier" (EnumVal.toPy "SapIdentifiers" x.sap_identifier),
     PyVal.attr "pad_octet_count" (.int (Int.ofNat x.pad_octet_count)),
     PyVal.attr "llid_destination" (.int (Int.ofNat x.llid_destination)),
     PyVal.attr "llid_source" (.int (Int.ofNat x.llid_source)),
     PyVal.attr "full_message_flag" (.bool x.full_message_flag),
     PyVal.attr "blocks_to_follow" (.int (Int.ofNat x.blocks_to_follow)),
     PyVal.attr "resynchronize_flag" (.bool x.resynchronize_flag),
     PyVal.attr "send_sequence_number" (.int (Int.ofNat x.send_sequence_number)),
     PyVal.attr "fragment_sequence_number" (.int (Int.ofNat x.fragment_sequence_number)),
     PyVal.attr "crc" (.bytes x.crc)]

/-- okdmr/kaitai/etsi/dmr_data_header.py:302-321 `DmrDataHeader.DataHeaderUnconfirmed` as a Python object. -/
def DmrDataHeader.DataHeaderUnconfirmed.toPy (x : DmrDataHeader.DataHeaderUnconfirmed) : PyVal :=
  .object "Etsi.DmrDataHeader.DataHeaderUnconfirmed"
    [PyVal.attr "llid_destination_is_group" (.bool x.llid_destination_is_group),
     PyVal.attr "response_requested" (.bool x.response_requested),
     PyVal.attr "reserved1" (.bool x.reserved1),
     PyVal.attr "pad_octet_count_msb" (.bool x.pad_octet_count_msb),
     PyVal.attr "format" (EnumVal.toPy "DataPacketFormats" x.format),
     PyVal.attr "sap_identifier" (EnumVal.toPy "SapIdentifiers" x.sap_identifier),
     PyVal.attr "pad_octet_count" (.int (Int.ofNat x.pad_octet_count)),
     PyVal.attr "llid_destination" (.int (Int.ofNat x.llid_destination)),
     PyVal.attr "llid_source" (.int (Int.ofNat x.llid_source)),
     PyVal.attr "full_message_flag" (.bool x.full_message_flag),
     PyVal.attr "blocks_to_follow" (.int (Int.ofNat x.blocks_to_follow)),
     PyVal.attr "reserved2" (.int (Int.ofNat x.reserved2)),
     PyVal.attr "fragment_sequence_number" (.int (Int.ofNat x.fragment_sequence_number)),
     PyVal.attr "crc" (.bytes x.crc)]

/-- okdmr/kaitai/etsi/dmr_data_header.py:332-352 `DmrDataHeader.DataHeaderShortDefined` as a Python object. -/
def DmrDataHeader.DataHeaderShortDefined.toPy (x : DmrDataHeader.DataHeaderShortDefined) : PyVal :=
  .object "Etsi.DmrDataHeader.DataHeaderShortDefined"
    [PyVal.attr "llid_destination_is_group" (.bool x.llid_destination_is_group),
     PyVal.attr "response_requested" (.bool x.response_requested),
     PyVal.attr "appended_blocks_msb" (.int (Int.ofNat x.appended_blocks_msb)),
     PyVal.attr "format" (EnumVal.toPy "DataPacketFormats" x.format),
     PyVal.attr "sap_identifier" (EnumVal.toPy "SapIdentifiers" x.sap_identifier),
     PyVal.attr "appended_blocks_lsb" (.int (Int.ofNat x.appended_blocks_lsb)),
     PyVal.attr "llid_destination" (.int (Int.ofNat x.llid_destination)),
     PyVal.attr "llid_source" (.int (Int.ofNat x.llid_source)),
     PyVal.attr "defined_data" (EnumVal.toPy "DefinedDataFormats" x.defined_data),
     PyVal.attr "selective_automatic_repeat_request" (.bool x.selective_automatic_repeat_request),
     PyVal.attr "full_message_flag" (.bool x.full_message_flag),
     PyVal.attr "bit_padding" (.int (Int.ofNat x.bit_padding)),
     PyVal.attr "crc" (.bytes x.crc)]

/-- okdmr/kaitai/etsi/dmr_data_header.py:373-397 `DmrDataHeader.DataHeaderUdt` as a Python object. -/
def DmrDataHeader.DataHeaderUdt.toPy (x : DmrDataHeader.DataHeaderUdt) : PyVal :=
  .object "Etsi.DmrDataHeader.DataHeaderUdt"
    [PyVal.attr "llid_destination_is_group" (.bool x.llid_destination_is_group),
     PyVal.attr "response_requested" (.bool x.response_requested),
     PyVal.attr "reserved1" (.int (Int.ofNat x.reserved1)),
     PyVal.attr "format" (EnumVal.toPy "DataPacketFormats" x.format),
     PyVal.attr "sap_identifier" (EnumVal.toPy "SapIdentifiers" x.sap_identifier),
     PyVal.attr "udt_format" (EnumVal.toPy "UdtFormats" x.udt_format),
     PyVal.attr "llid_destination" (.int (Int.ofNat x.llid_destination)),
     PyVal.attr "llid_source" (.int (Int.ofNat x.llid_source)),
     PyVal.attr "pad_nibble" (.int (Int.ofNat x.pad_nibble)),
     PyVal.attr "reserved2" (.bool x.reserved2),
     PyVal.attr "appended_blocks" (.int (Int.ofNat x.appended_blocks)),
     PyVal.attr "supplementary_flag" (.bool x.supplementary_flag),
     PyVal.attr "protect_flag" (.bool x.protect_flag),
     PyVal.attr "udt_opcode" (EnumVal.toPy "CsbkMbcUdtOpcodes" x.udt_opcode),
     PyVal.attr "crc" (.bytes x.crc)]

/-- okdmr/kaitai/etsi/dmr_data_header.py:115-119 `DmrDataHeader` as a Python object. -/
def DmrDataHeader.toPy (x : DmrDataHeader) : PyVal :=
  .object "Etsi.DmrDataHeader"
    [PyVal.attr "skip4" (.int (Int.ofNat x.skip4)),
     PyVal.attr "data_packet_format" (EnumVal.toPy "DataPacketFormats" x.data_packet_format)]

/-- okdmr/kaitai/etsi/dmr_data_header.py:407-457 the object in the union. -/
def DmrDataHeader.DataUnion.toPy : DmrDataHeader.DataUnion → PyVal
  | .dataHeaderProprietary x => DmrDataHeader.DataHeaderProprietary.toPy x
  | .dataHeaderShortDefined x => DmrDataHeader.DataHeaderShortDefined.toPy x
  | .dataHeaderUnconfirmed x => DmrDataHeader.DataHeaderUnconfirmed.toPy x
  | .dataHeaderConfirmed x => DmrDataHeader.DataHeaderConfirmed.toPy x
  | .dataHeaderUdt x => DmrDataHeader.DataHeaderUdt.toPy x
  | .dataHeaderShortStatusPrecoded x => DmrDataHeader.DataHeaderShortStatusPrecoded.toPy x
  | .dataHeaderResponse x => DmrDataHeader.DataHeaderResponse.toPy x
  | .dataHeaderUndefined x => DmrDataHeader.DataHeaderUndefined.toPy x

end Dmr.Etsi

namespace Dmr.Etsi

/-- okdmr/kaitai/etsi/dmr_ip_udp.py:50-79 `DmrIpUdp.UdpIpv4CompressedHeader` as a Python object. -/
def DmrIpUdp.UdpIpv4CompressedHeader.toPy (x : DmrIpUdp.UdpIpv4CompressedHeader) : PyVal :=
  .object "Etsi.DmrIpUdp.UdpIpv4CompressedHeader"
    [PyVal.attr "ipv4_identification" (.bytes x.ipv4_identification),
     PyVal.attr "source_ip_address_id" (EnumVal.toPy "SourceIpAddressIds" x.source_ip_address_id),
     PyVal.attr "destination_ip_address_id" (EnumVal.toPy "DestinationIpAddressIds" x.destination_ip_address_id),
     PyVal.attr "header_compression_opcode_msb" (.bool x.header_compression_opcode_msb),
     PyVal.attr "udp_source_port_id" (EnumVal.toPy "UdpPortIds" x.udp_source_port_id),
     PyVal.attr "header_compression_opcode_lsb" (.bool x.header_compression_opcode_lsb),
     PyVal.attr "udp_destination_port_id" (EnumVal.toPy "UdpPortIds" x.udp_destination_port_id),
     PyVal.optAttr "udp_source_port" (x.udp_source_port.map fun y => .bytes y),
     PyVal.optAttr "udp_destination_port" (x.udp_destination_port.map fun y => .bytes y),
     PyVal.attr "user_data" (.bytes x.user_data)]

/-- okdmr/kaitai/etsi/dmr_ip_udp.py:38-39 `DmrIpUdp` as a Python object. -/
def DmrIpUdp.toPy (_x : DmrIpUdp) : PyVal :=
  .object "Etsi.DmrIpUdp" []

end Dmr.Etsi

namespace Dmr.Etsi

/-- okdmr/kaitai/etsi/full_link_control.py:111-117 `FullLinkControl.GpsInfoLcPdu` as a Python object. -/
def FullLinkControl.GpsInfoLcPdu.toPy (x : FullLinkControl.GpsInfoLcPdu) : PyVal :=
  .object "Etsi.FullLinkControl.GpsInfoLcPdu"
    [PyVal.attr "reserved" (.int (Int.ofNat x.reserved)),
     PyVal.attr "position_error" (EnumVal.toPy "PositionErrors" x.position_error),
     PyVal.attr "longitude" (.int (Int.ofNat x.longitude)),
     PyVal.attr "latitude" (.int (Int.ofNat x.latitude))]

/-- okdmr/kaitai/etsi/full_link_control.py:126-129 `FullLinkControl.GroupVoiceChannelUser` as a Python object. -/
def FullLinkControl.GroupVoiceChannelUser.toPy (x : FullLinkControl.GroupVoiceChannelUser) : PyVal :=
  .object "Etsi.FullLinkControl.GroupVoiceChannelUser"
    [PyVal.attr "service_options" (.int (Int.ofNat x.service_options)),
     PyVal.attr "group_address" (.int (Int.ofNat x.group_address)),
     PyVal.attr "source_address" (.int (Int.ofNat x.source_address))]

/-- okdmr/kaitai/etsi/full_link_control.py:138-141 `FullLinkControl.UnitToUnitVoiceChannelUser` as a Python object. -/
def FullLinkControl.UnitToUnitVoiceChannelUser.toPy (x : FullLinkControl.UnitToUnitVoiceChannelUser) : PyVal :=
  .object "Etsi.FullLinkControl.UnitToUnitVoiceChannelUser"
    [PyVal.attr "service_options" (.int (Int.ofNat x.service_options)),
     PyVal.attr "target_address" (.int (Int.ofNat x.target_address)),
     PyVal.attr "source_address" (.int (Int.ofNat x.source_address))]

/-- okdmr/kaitai/etsi/full_link_control.py:150-155 `FullLinkControl.TalkerAliasHeader` as a Python object. -/
def FullLinkControl.TalkerAliasHeader.toPy (x : FullLinkControl.TalkerAliasHeader) : PyVal :=
  .object "Etsi.FullLinkControl.TalkerAliasHeader"
    [PyVal.attr "talker_alias_data_format" (EnumVal.toPy "TalkerDataFormats" x.talker_alias_data_format),
     PyVal.attr "talker_alias_data_length" (.int (Int.ofNat x.talker_alias_data_length)),
     PyVal.attr "talker_alias_data" (.int (Int.ofNat x.talker_alias_data))]

/-- okdmr/kaitai/etsi/full_link_control.py:164-165 `FullLinkControl.TalkerAliasContinuation` as a Python object. -/
def FullLinkControl.TalkerAliasContinuation.toPy (x : FullLinkControl.TalkerAliasContinuation) : PyVal :=
  .object "Etsi.FullLinkControl.TalkerAliasContinuation"
    [PyVal.attr "talker_alias_data" (.int (Int.ofNat x.talker_alias_data))]

/-- okdmr/kaitai/etsi/full_link_control.py:71-97 the object in the union. -/
def FullLinkControl.SpecificDataUnion.toPy : FullLinkControl.SpecificDataUnion → PyVal
  | .talkerAliasHeader x => FullLinkControl.TalkerAliasHeader.toPy x
  | .unitToUnitVoiceChannelUser x => FullLinkControl.UnitToUnitVoiceChannelUser.toPy x
  | .groupVoiceChannelUser x => FullLinkControl.GroupVoiceChannelUser.toPy x
  | .talkerAliasContinuation x => FullLinkControl.TalkerAliasContinuation.toPy x
  | .gpsInfoLcPdu x => FullLinkControl.GpsInfoLcPdu.toPy x

/-- okdmr/kaitai/etsi/full_link_control.py:59-102 `FullLinkControl` as a Python object. -/
def FullLinkControl.toPy (x : FullLinkControl) : PyVal :=
  .object "Etsi.FullLinkControl"
    [PyVal.attr "protect_flag" (.bool x.protect_flag),
     PyVal.attr "reserved" (.bool x.reserved),
     PyVal.attr "full_link_control_opcode" (EnumVal.toPy "Flcos" x.full_link_control_opcode),
     PyVal.attr "feature_set_id" (EnumVal.toPy "FeatureSetIds" x.feature_set_id),
     PyVal.optAttr "specific_data" (x.specific_data.map fun y => FullLinkControl.SpecificDataUnion.toPy y),
     PyVal.optAttr "crc_checksum" (x.crc_checksum.map fun y => .bytes y),
     PyVal.optAttr "cs5_checksum" (x.cs5_checksum.map fun y => .int (Int.ofNat y))]

end Dmr.Etsi

namespace Dmr.Homebrew

/-- okdmr/kaitai/homebrew/homebrew2015.py:81-90 `Homebrew2015.TypeMasterPing` as a Python object. -/
def Homebrew2015.TypeMasterPing.toPy (x : Homebrew2015.TypeMasterPing) : PyVal :=
  .object "Homebrew.Homebrew2015.TypeMasterPing"
    [PyVal.attr "magic" (.bytes x.magic),
     PyVal.attr "repeater_id" (.int (Int.ofNat x.repeater_id))]

/-- okdmr/kaitai/homebrew/homebrew2015.py:99-108 `Homebrew2015.TypeRepeaterPong` as a Python object. -/
def Homebrew2015.TypeRepeaterPong.toPy (x : Homebrew2015.TypeRepeaterPong) : PyVal :=
  .object "Homebrew.Homebrew2015.TypeRepeaterPong"
    [PyVal.attr "magic" (.bytes x.magic),
     PyVal.attr "repeater_id" (.int (Int.ofNat x.repeater_id))]

/-- okdmr/kaitai/homebrew/homebrew2015.py:250-256 `Homebrew2015.TypeRepeaterClosing` as a Python object. -/
def Homebrew2015.TypeRepeaterClosing.toPy (x : Homebrew2015.TypeRepeaterClosing) : PyVal :=
  .object "Homebrew.Homebrew2015.TypeRepeaterClosing"
    [PyVal.attr "magic" (.bytes x.magic),
     PyVal.attr "repeater_id" (.int (Int.ofNat x.repeater_id))]

/-- okdmr/kaitai/homebrew/homebrew2015.py:265-280 `Homebrew2015.TypeRepeaterConfiguration` as a Python object. -/
def Homebrew2015.TypeRepeaterConfiguration.toPy (x : Homebrew2015.TypeRepeaterConfiguration) : PyVal :=
  .object "Homebrew.Homebrew2015.TypeRepeaterConfiguration"
    [PyVal.attr "repeater_id" (.int (Int.ofNat x.repeater_id)),
     PyVal.attr "call_sign" (.str x.call_sign),
     PyVal.attr "rx_freq" (.str x.rx_freq),
     PyVal.attr "tx_freq" (.str x.tx_freq),
     PyVal.attr "tx_power" (.str x.tx_power),
     PyVal.attr "color_code" (.str x.color_code),
     PyVal.attr "latitude" (.str x.latitude),
     PyVal.attr "longitude" (.str x.longitude),
     PyVal.attr "antenna_height_above_ground" (.str x.antenna_height_above_ground),
     PyVal.attr "location" (.str x.location),
     PyVal.attr "description" (.str x.description),
     PyVal.attr "url" (.str x.url),
     PyVal.attr "software_id" (.str x.software_id),
     PyVal.attr "package_id" (.str x.package_id),
     PyVal.attr "unparsed_data" (.str x.unparsed_data)]

/-- okdmr/kaitai/homebrew/homebrew2015.py:117-124 the object in the union. -/
def Homebrew2015.TypeRepeaterConfigurationOrClosing.DataUnion.toPy : Homebrew2015.TypeRepeaterConfigurationOrClosing.DataUnion → PyVal
  | .typeRepeaterClosing x => Homebrew2015.TypeRepeaterClosing.toPy x
  | .typeRepeaterConfiguration x => Homebrew2015.TypeRepeaterConfiguration.toPy x

/-- okdmr/kaitai/homebrew/homebrew2015.py:117-124 `Homebrew2015.TypeRepeaterConfigurationOrClosing` as a Python object. -/
def Homebrew2015.TypeRepeaterConfigurationOrClosing.toPy (x : Homebrew2015.TypeRepeaterConfigurationOrClosing) : PyVal :=
  .object "Homebrew.Homebrew2015.TypeRepeaterConfigurationOrClosing"
    [PyVal.attr "data" (Homebrew2015.TypeRepeaterConfigurationOrClosing.DataUnion.toPy x.data)]

/-- okdmr/kaitai/homebrew/homebrew2015.py:133-135 `Homebrew2015.TypeRepeaterLoginResponse` as a Python object. -/
def Homebrew2015.TypeRepeaterLoginResponse.toPy (x : Homebrew2015.TypeRepeaterLoginResponse) : PyVal :=
  .object "Homebrew.Homebrew2015.TypeRepeaterLoginResponse"
    [PyVal.attr "repeater_id" (.int (Int.ofNat x.repeater_id)),
     PyVal.attr "sha256" (.bytes x.sha256)]

/-- okdmr/kaitai/homebrew/homebrew2015.py:144-145 `Homebrew2015.TypeRepeaterLoginRequest` as a Python object. -/
def Homebrew2015.TypeRepeaterLoginRequest.toPy (x : Homebrew2015.TypeRepeaterLoginRequest) : PyVal :=
  .object "Homebrew.Homebrew2015.TypeRepeaterLoginRequest"
    [PyVal.attr "repeater_id" (.int (Int.ofNat x.repeater_id))]

/-- okdmr/kaitai/homebrew/homebrew2015.py:154-163 `Homebrew2015.TypeMasterNotAccept` as a Python object. -/
def Homebrew2015.TypeMasterNotAccept.toPy (x : Homebrew2015.TypeMasterNotAccept) : PyVal :=
  .object "Homebrew.Homebrew2015.TypeMasterNotAccept"
    [PyVal.attr "magic" (.bytes x.magic),
     PyVal.attr "repeater_id" (.int (Int.ofNat x.repeater_id))]

/-- okdmr/kaitai/homebrew/homebrew2015.py:172-183 `Homebrew2015.TypeMasterRepeaterAck` as a Python object. -/
def Homebrew2015.TypeMasterRepeaterAck.toPy (x : Homebrew2015.TypeMasterRepeaterAck) : PyVal :=
  .object "Homebrew.Homebrew2015.TypeMasterRepeaterAck"
    [PyVal.attr "magictype_master_repeater_ack" (.bytes x.magictype_master_repeater_ack),
     PyVal.attr "repeater_id" (.int (Int.ofNat x.repeater_id)),
     PyVal.optAttr "random_number" (x.random_number.map fun y => .int (Int.ofNat y))]

/-- okdmr/kaitai/homebrew/homebrew2015.py:192-198 `Homebrew2015.TypeMasterClosing` as a Python object. -/
def Homebrew2015.TypeMasterClosing.toPy (x : Homebrew2015.TypeMasterClosing) : PyVal :=
  .object "Homebrew.Homebrew2015.TypeMasterClosing"
    [PyVal.attr "magic" (.bytes x.magic),
     PyVal.attr "repeater_id" (.int (Int.ofNat x.repeater_id))]

/-- okdmr/kaitai/homebrew/homebrew2015.py:207-230 `Homebrew2015.TypeDmrData` as a Python object. -/
def Homebrew2015.TypeDmrData.toPy (x : Homebrew2015.TypeDmrData) : PyVal :=
  .object "Homebrew.Homebrew2015.TypeDmrData"
    [PyVal.attr "sequence_no" (.int (Int.ofNat x.sequence_no)),
     PyVal.attr "source_id" (.int (Int.ofNat x.source_id)),
     PyVal.attr "target_id" (.int (Int.ofNat x.target_id)),
     PyVal.attr "repeater_id" (.int (Int.ofNat x.repeater_id)),
     PyVal.attr "slot_no" (EnumVal.toPy "Timeslots" x.slot_no),
     PyVal.attr "call_type" (EnumVal.toPy "CallTypes" x.call_type),
     PyVal.attr "frame_type" (EnumVal.toPy "FrameTypes" x.frame_type),
     PyVal.attr "data_type" (.int (Int.ofNat x.data_type)),
     PyVal.attr "stream_id" (.int (Int.ofNat x.stream_id)),
     PyVal.attr "dmr_data" (.bytes x.dmr_data),
     PyVal.optAttr "bit_error_rate" (x.bit_error_rate.map fun y => .int (Int.ofNat y)),
     PyVal.optAttr "rssi" (x.rssi.map fun y => .int (Int.ofNat y))]

/-- okdmr/kaitai/homebrew/homebrew2015.py:239-241 `Homebrew2015.TypeRepeaterOptions` as a Python object. -/
def Homebrew2015.TypeRepeaterOptions.toPy (x : Homebrew2015.TypeRepeaterOptions) : PyVal :=
  .object "Homebrew.Homebrew2015.TypeRepeaterOptions"
    [PyVal.attr "repeater_id" (.int (Int.ofNat x.repeater_id)),
     PyVal.attr "options" (.str x.options)]

/-- okdmr/kaitai/homebrew/homebrew2015.py:42-72 the object in the union. -/
def Homebrew2015.CommandDataUnion.toPy : Homebrew2015.CommandDataUnion → PyVal
  | .typeRepeaterLoginRequest x => Homebrew2015.TypeRepeaterLoginRequest.toPy x
  | .typeMasterRepeaterAck x => Homebrew2015.TypeMasterRepeaterAck.toPy x
  | .typeRepeaterLoginResponse x => Homebrew2015.TypeRepeaterLoginResponse.toPy x
  | .typeRepeaterConfigurationOrClosing x => Homebrew2015.TypeRepeaterConfigurationOrClosing.toPy x
  | .typeDmrData x => Homebrew2015.TypeDmrData.toPy x
  | .typeMasterClosing x => Homebrew2015.TypeMasterClosing.toPy x
  | .typeRepeaterPong x => Homebrew2015.TypeRepeaterPong.toPy x
  | .typeMasterPing x => Homebrew2015.TypeMasterPing.toPy x
  | .typeMasterNotAccept x => Homebrew2015.TypeMasterNotAccept.toPy x

/-- okdmr/kaitai/homebrew/homebrew2015.py:282-291 the cached `fifth_letter`, which is only evaluated for a configuration or closing:
the letter of `RPTCL`, or the first byte of the repeater id that follows `RPTC` (both decoded as ASCII by then), for a packet at the beginning of its stream. -/
def Homebrew2015.CommandDataUnion.fifthLetter : Homebrew2015.CommandDataUnion → Option PyVal
  | .typeRepeaterConfigurationOrClosing ⟨.typeRepeaterClosing _⟩ => some (.str ['L'])
  | .typeRepeaterConfigurationOrClosing ⟨.typeRepeaterConfiguration x⟩ => some (.str [Char.ofNat (x.repeater_id / 2 ^ 24)])
  | _ => .none

/-- okdmr/kaitai/homebrew/homebrew2015.py:38-72 `Homebrew2015` as a Python object. -/
def Homebrew2015.toPy (x : Homebrew2015) : PyVal :=
  .object "Homebrew.Homebrew2015"
    [PyVal.attr "command_prefix" (.str x.command_prefix),
     PyVal.optAttr "_m_fifth_letter" (x.command_data.bind Homebrew2015.CommandDataUnion.fifthLetter),
     PyVal.optAttr "command_data" (x.command_data.map fun y => Homebrew2015.CommandDataUnion.toPy y)]

end Dmr.Homebrew

namespace Dmr.Homebrew

/-- okdmr/kaitai/homebrew/mmdvm2020.py:103-112 `Mmdvm2020.TypeMasterPong` as a Python object. -/
def Mmdvm2020.TypeMasterPong.toPy (x : Mmdvm2020.TypeMasterPong) : PyVal :=
  .object "Homebrew.Mmdvm2020.TypeMasterPong"
    [PyVal.attr "magic" (.bytes x.magic),
     PyVal.attr "repeater_id" (.int (Int.ofNat x.repeater_id))]

/-- okdmr/kaitai/homebrew/mmdvm2020.py:123-130 `Mmdvm2020.TypeRadioPosition` as a Python object. -/
def Mmdvm2020.TypeRadioPosition.toPy (x : Mmdvm2020.TypeRadioPosition) : PyVal :=
  .object "Homebrew.Mmdvm2020.TypeRadioPosition"
    [PyVal.attr "radio_id" (.int (Int.ofNat x.radio_id)),
     PyVal.attr "reserved" (.int (Int.ofNat x.reserved)),
     PyVal.attr "position_error" (EnumVal.toPy "PositionErrors" x.position_error),
     PyVal.attr "longitude" (.int (Int.ofNat x.longitude)),
     PyVal.attr "latitude" (.int (Int.ofNat x.latitude))]

/-- okdmr/kaitai/homebrew/mmdvm2020.py:139-145 `Mmdvm2020.TypeTalkerAlias` as a Python object. -/
def Mmdvm2020.TypeTalkerAlias.toPy (x : Mmdvm2020.TypeTalkerAlias) : PyVal :=
  .object "Homebrew.Mmdvm2020.TypeTalkerAlias"
    [PyVal.attr "radio_id" (.int (Int.ofNat x.radio_id)),
     PyVal.attr "talker_alias_type" (EnumVal.toPy "TalkerAliasTypes" x.talker_alias_type),
     PyVal.attr "talker_alias" (.str x.talker_alias)]

/-- okdmr/kaitai/homebrew/mmdvm2020.py:307-313 `Mmdvm2020.TypeRepeaterClosing` as a Python object. -/
def Mmdvm2020.TypeRepeaterClosing.toPy (x : Mmdvm2020.TypeRepeaterClosing) : PyVal :=
  .object "Homebrew.Mmdvm2020.TypeRepeaterClosing"
    [PyVal.attr "magic" (.bytes x.magic),
     PyVal.attr "repeater_id" (.int (Int.ofNat x.repeater_id))]

/-- okdmr/kaitai/homebrew/mmdvm2020.py:322-338 `Mmdvm2020.TypeRepeaterConfiguration` as a Python object. -/
def Mmdvm2020.TypeRepeaterConfiguration.toPy (x : Mmdvm2020.TypeRepeaterConfiguration) : PyVal :=
  .object "Homebrew.Mmdvm2020.TypeRepeaterConfiguration"
    [PyVal.attr "repeater_id" (.int (Int.ofNat x.repeater_id)),
     PyVal.attr "call_sign" (.str x.call_sign),
     PyVal.attr "rx_freq" (.str x.rx_freq),
     PyVal.attr "tx_freq" (.str x.tx_freq),
     PyVal.attr "tx_power" (.str x.tx_power),
     PyVal.attr "color_code" (.str x.color_code),
     PyVal.attr "latitude" (.str x.latitude),
     PyVal.attr "longitude" (.str x.longitude),
     PyVal.attr "antenna_height_above_ground" (.str x.antenna_height_above_ground),
     PyVal.attr "location" (.str x.location),
     PyVal.attr "description" (.str x.description),
     PyVal.attr "slots" (.str x.slots),
     PyVal.attr "url" (.str x.url),
     PyVal.attr "software_id" (.str x.software_id),
     PyVal.attr "package_id" (.str x.package_id),
     PyVal.attr "unparsed_data" (.str x.unparsed_data)]

/-- okdmr/kaitai/homebrew/mmdvm2020.py:154-161 the object in the union. -/
def Mmdvm2020.TypeRepeaterConfigurationOrClosing.DataUnion.toPy : Mmdvm2020.TypeRepeaterConfigurationOrClosing.DataUnion → PyVal
  | .typeRepeaterClosing x => Mmdvm2020.TypeRepeaterClosing.toPy x
  | .typeRepeaterConfiguration x => Mmdvm2020.TypeRepeaterConfiguration.toPy x

/-- okdmr/kaitai/homebrew/mmdvm2020.py:154-161 `Mmdvm2020.TypeRepeaterConfigurationOrClosing` as a Python object. -/
def Mmdvm2020.TypeRepeaterConfigurationOrClosing.toPy (x : Mmdvm2020.TypeRepeaterConfigurationOrClosing) : PyVal :=
  .object "Homebrew.Mmdvm2020.TypeRepeaterConfigurationOrClosing"
    [PyVal.attr "data" (Mmdvm2020.TypeRepeaterConfigurationOrClosing.DataUnion.toPy x.data)]

/-- okdmr/kaitai/homebrew/mmdvm2020.py:170-172 `Mmdvm2020.TypeRepeaterLoginResponse` as a Python object. -/
def Mmdvm2020.TypeRepeaterLoginResponse.toPy (x : Mmdvm2020.TypeRepeaterLoginResponse) : PyVal :=
  .object "Homebrew.Mmdvm2020.TypeRepeaterLoginResponse"
    [PyVal.attr "repeater_id" (.int (Int.ofNat x.repeater_id)),
     PyVal.attr "sha256" (.bytes x.sha256)]

/-- okdmr/kaitai/homebrew/mmdvm2020.py:181-182 `Mmdvm2020.TypeRepeaterLoginRequest` as a Python object. -/
def Mmdvm2020.TypeRepeaterLoginRequest.toPy (x : Mmdvm2020.TypeRepeaterLoginRequest) : PyVal :=
  .object "Homebrew.Mmdvm2020.TypeRepeaterLoginRequest"
    [PyVal.attr "repeater_id" (.int (Int.ofNat x.repeater_id))]

/-- okdmr/kaitai/homebrew/mmdvm2020.py:191-200 `Mmdvm2020.TypeMasterNotAccept` as a Python object. -/
def Mmdvm2020.TypeMasterNotAccept.toPy (x : Mmdvm2020.TypeMasterNotAccept) : PyVal :=
  .object "Homebrew.Mmdvm2020.TypeMasterNotAccept"
    [PyVal.attr "magic" (.bytes x.magic),
     PyVal.attr "repeater_id" (.int (Int.ofNat x.repeater_id))]

/-- okdmr/kaitai/homebrew/mmdvm2020.py:209-210 `Mmdvm2020.TypeUnknown` as a Python object. -/
def Mmdvm2020.TypeUnknown.toPy (x : Mmdvm2020.TypeUnknown) : PyVal :=
  .object "Homebrew.Mmdvm2020.TypeUnknown"
    [PyVal.attr "unknown_data" (.bytes x.unknown_data)]

/-- okdmr/kaitai/homebrew/mmdvm2020.py:219-228 `Mmdvm2020.TypeMasterRepeaterAck` as a Python object. -/
def Mmdvm2020.TypeMasterRepeaterAck.toPy (x : Mmdvm2020.TypeMasterRepeaterAck) : PyVal :=
  .object "Homebrew.Mmdvm2020.TypeMasterRepeaterAck"
    [PyVal.attr "magic" (.bytes x.magic),
     PyVal.attr "repeater_id_or_challenge" (.int (Int.ofNat x.repeater_id_or_challenge))]

/-- okdmr/kaitai/homebrew/mmdvm2020.py:237-243 `Mmdvm2020.TypeMasterClosing` as a Python object. -/
def Mmdvm2020.TypeMasterClosing.toPy (x : Mmdvm2020.TypeMasterClosing) : PyVal :=
  .object "Homebrew.Mmdvm2020.TypeMasterClosing"
    [PyVal.attr "magic" (.bytes x.magic),
     PyVal.attr "repeater_id" (.int (Int.ofNat x.repeater_id))]

/-- okdmr/kaitai/homebrew/mmdvm2020.py:252-275 `Mmdvm2020.TypeDmrData` as a Python object. -/
def Mmdvm2020.TypeDmrData.toPy (x : Mmdvm2020.TypeDmrData) : PyVal :=
  .object "Homebrew.Mmdvm2020.TypeDmrData"
    [PyVal.attr "sequence_no" (.int (Int.ofNat x.sequence_no)),
     PyVal.attr "source_id" (.int (Int.ofNat x.source_id)),
     PyVal.attr "target_id" (.int (Int.ofNat x.target_id)),
     PyVal.attr "repeater_id" (.int (Int.ofNat x.repeater_id)),
     PyVal.attr "slot_no" (EnumVal.toPy "Timeslots" x.slot_no),
     PyVal.attr "call_type" (EnumVal.toPy "CallTypes" x.call_type),
     PyVal.attr "frame_type" (EnumVal.toPy "FrameTypes" x.frame_type),
     PyVal.attr "data_type" (.int (Int.ofNat x.data_type)),
     PyVal.attr "stream_id" (.int (Int.ofNat x.stream_id)),
     PyVal.attr "dmr_data" (.bytes x.dmr_data),
     PyVal.optAttr "bit_error_rate" (x.bit_error_rate.map fun y => .int (Int.ofNat y)),
     PyVal.optAttr "rssi" (x.rssi.map fun y => .int (Int.ofNat y))]

/-- okdmr/kaitai/homebrew/mmdvm2020.py:286-287 `Mmdvm2020.TypeRepeaterBeacon` as a Python object. -/
def Mmdvm2020.TypeRepeaterBeacon.toPy (_x : Mmdvm2020.TypeRepeaterBeacon) : PyVal :=
  .object "Homebrew.Mmdvm2020.TypeRepeaterBeacon" []

/-- okdmr/kaitai/homebrew/mmdvm2020.py:296-298 `Mmdvm2020.TypeRepeaterOptions` as a Python object. -/
def Mmdvm2020.TypeRepeaterOptions.toPy (x : Mmdvm2020.TypeRepeaterOptions) : PyVal :=
  .object "Homebrew.Mmdvm2020.TypeRepeaterOptions"
    [PyVal.attr "repeater_id" (.int (Int.ofNat x.repeater_id)),
     PyVal.attr "options" (.str x.options)]

/-- okdmr/kaitai/homebrew/mmdvm2020.py:347-356 `Mmdvm2020.TypeRepeaterPing` as a Python object. -/
def Mmdvm2020.TypeRepeaterPing.toPy (x : Mmdvm2020.TypeRepeaterPing) : PyVal :=
  .object "Homebrew.Mmdvm2020.TypeRepeaterPing"
    [PyVal.attr "magic" (.bytes x.magic),
     PyVal.attr "repeater_id" (.int (Int.ofNat x.repeater_id))]

/-- okdmr/kaitai/homebrew/mmdvm2020.py:58-94 the object in the union. -/
def Mmdvm2020.CommandDataUnion.toPy : Mmdvm2020.CommandDataUnion → PyVal
  | .typeRepeaterLoginRequest x => Mmdvm2020.TypeRepeaterLoginRequest.toPy x
  | .typeRadioPosition x => Mmdvm2020.TypeRadioPosition.toPy x
  | .typeMasterRepeaterAck x => Mmdvm2020.TypeMasterRepeaterAck.toPy x
  | .typeRepeaterLoginResponse x => Mmdvm2020.TypeRepeaterLoginResponse.toPy x
  | .typeRepeaterConfigurationOrClosing x => Mmdvm2020.TypeRepeaterConfigurationOrClosing.toPy x
  | .typeDmrData x => Mmdvm2020.TypeDmrData.toPy x
  | .typeMasterClosing x => Mmdvm2020.TypeMasterClosing.toPy x
  | .typeRepeaterPing x => Mmdvm2020.TypeRepeaterPing.toPy x
  | .typeRepeaterOptions x => Mmdvm2020.TypeRepeaterOptions.toPy x
  | .typeMasterPong x => Mmdvm2020.TypeMasterPong.toPy x
  | .typeRepeaterBeacon x => Mmdvm2020.TypeRepeaterBeacon.toPy x
  | .typeMasterNotAccept x => Mmdvm2020.TypeMasterNotAccept.toPy x
  | .typeTalkerAlias x => Mmdvm2020.TypeTalkerAlias.toPy x

/-- okdmr/kaitai/homebrew/mmdvm2020.py:358-367 the cached `fifth_letter`, which is only evaluated for a configuration or closing:
the letter of `RPTCL`, or the first byte of the repeater id that follows `RPTC` (both decoded as ASCII by then), for a packet at the beginning of its stream. -/
def Mmdvm2020.CommandDataUnion.fifthLetter : Mmdvm2020.CommandDataUnion → Option PyVal
  | .typeRepeaterConfigurationOrClosing ⟨.typeRepeaterClosing _⟩ => some (.str ['L'])
  | .typeRepeaterConfigurationOrClosing ⟨.typeRepeaterConfiguration x⟩ => some (.str [Char.ofNat (x.repeater_id / 2 ^ 24)])
  | _ => .none

/-- okdmr/kaitai/homebrew/mmdvm2020.py:54-94 `Mmdvm2020` as a Python object. -/
def Mmdvm2020.toPy (x : Mmdvm2020) : PyVal :=
  .object "Homebrew.Mmdvm2020"
    [PyVal.attr "command_prefix" (.str x.command_prefix),
     PyVal.optAttr "_m_fifth_letter" (x.command_data.bind Mmdvm2020.CommandDataUnion.fifthLetter),
     PyVal.optAttr "command_data" (x.command_data.map fun y => Mmdvm2020.CommandDataUnion.toPy y)]

end Dmr.Homebrew

namespace Dmr.Motorola

/-- okdmr/kaitai/motorola/automatic_registration_service.py:102-107 `AutomaticRegistrationService.MessageHeaderBits` as a Python object. -/
def AutomaticRegistrationService.MessageHeaderBits.toPy (x : AutomaticRegistrationService.MessageHeaderBits) : PyVal :=
  .object "Motorola.AutomaticRegistrationService.MessageHeaderBits"
    [PyVal.attr "extension_bit" (.bool x.extension_bit),
     PyVal.attr "acknowledgement_bit" (.bool x.acknowledgement_bit),
     PyVal.attr "priority" (.bool x.priority),
     PyVal.attr "control_user_bit" (.bool x.control_user_bit),
     PyVal.attr "pdu_type" (.int (Int.ofNat x.pdu_type))]

/-- okdmr/kaitai/motorola/automatic_registration_service.py:187-189 `AutomaticRegistrationService.DeviceRegistrationAcknowledgementHeader` as a Python object. -/
def AutomaticRegistrationService.DeviceRegistrationAcknowledgementHeader.toPy (x : AutomaticRegistrationService.DeviceRegistrationAcknowledgementHeader) : PyVal :=
  .object "Motorola.AutomaticRegistrationService.DeviceRegistrationAcknowledgementHeader"
    [PyVal.attr "extension_bit" (.bool x.extension_bit),
     PyVal.attr "refresh_time" (.int (Int.ofNat x.refresh_time))]

/-- okdmr/kaitai/motorola/automatic_registration_service.py:130-135 `AutomaticRegistrationService.DeviceRegistrationAcknowledgementFailureReason` as a Python object. -/
def AutomaticRegistrationService.DeviceRegistrationAcknowledgementFailureReason.toPy (x : AutomaticRegistrationService.DeviceRegistrationAcknowledgementFailureReason) : PyVal :=
  .object "Motorola.AutomaticRegistrationService.DeviceRegistrationAcknowledgementFailureReason"
    [PyVal.attr "extension_bit" (.bool x.extension_bit),
     PyVal.attr "failure_reason" (EnumVal.toPy "FailureReasons" x.failure_reason)]

/-- okdmr/kaitai/motorola/automatic_registration_service.py:65-78 `AutomaticRegistrationService.AcknowledgementMessage` as a Python object. -/
def AutomaticRegistrationService.AcknowledgementMessage.toPy (x : AutomaticRegistrationService.AcknowledgementMessage) : PyVal :=
  .object "Motorola.AutomaticRegistrationService.AcknowledgementMessage"
    [PyVal.optAttr "device_registration_acknowledgement_header" (x.device_registration_acknowledgement_header.map fun y => AutomaticRegistrationService.DeviceRegistrationAcknowledgementHeader.toPy y),
     PyVal.optAttr "device_registration_acknowledgement_failure_reason" (x.device_registration_acknowledgement_failure_reason.map fun y => AutomaticRegistrationService.DeviceRegistrationAcknowledgementFailureReason.toPy y)]

/-- okdmr/kaitai/motorola/automatic_registration_service.py:87-93 `AutomaticRegistrationService.DeviceRegistrationMessageHeader` as a Python object. -/
def AutomaticRegistrationService.DeviceRegistrationMessageHeader.toPy (x : AutomaticRegistrationService.DeviceRegistrationMessageHeader) : PyVal :=
  .object "Motorola.AutomaticRegistrationService.DeviceRegistrationMessageHeader"
    [PyVal.attr "extension_bit" (.bool x.extension_bit),
     PyVal.attr "event" (EnumVal.toPy "RegistrationEvents" x.event),
     PyVal.attr "encoding" (.int (Int.ofNat x.encoding))]

/-- okdmr/kaitai/motorola/automatic_registration_service.py:118-119 `AutomaticRegistrationService.DeviceDeregistrationMessage` as a Python object. -/
def AutomaticRegistrationService.DeviceDeregistrationMessage.toPy (_x : AutomaticRegistrationService.DeviceDeregistrationMessage) : PyVal :=
  .object "Motorola.AutomaticRegistrationService.DeviceDeregistrationMessage" []

/-- okdmr/kaitai/motorola/automatic_registration_service.py:146-164 `AutomaticRegistrationService.DeviceRegistrationMessage` as a Python object. -/
def AutomaticRegistrationService.DeviceRegistrationMessage.toPy (x : AutomaticRegistrationService.DeviceRegistrationMessage) : PyVal :=
  .object "Motorola.AutomaticRegistrationService.DeviceRegistrationMessage"
    [PyVal.optAttr "device_registration_message_header" (x.device_registration_message_header.map fun y => AutomaticRegistrationService.DeviceRegistrationMessageHeader.toPy y),
     PyVal.attr "len_device_identifier" (.int (Int.ofNat x.len_device_identifier)),
     PyVal.optAttr "device_identifier" (x.device_identifier.map fun y => .bytes y),
     PyVal.attr "len_user_identifier" (.int (Int.ofNat x.len_user_identifier)),
     PyVal.optAttr "user_identifier" (x.user_identifier.map fun y => .bytes y),
     PyVal.attr "len_password" (.int (Int.ofNat x.len_password)),
     PyVal.optAttr "password" (x.password.map fun y => .bytes y)]

/-- okdmr/kaitai/motorola/automatic_registration_service.py:175-176 `AutomaticRegistrationService.ArsQueryMessage` as a Python object. -/
def AutomaticRegistrationService.ArsQueryMessage.toPy (_x : AutomaticRegistrationService.ArsQueryMessage) : PyVal :=
  .object "Motorola.AutomaticRegistrationService.ArsQueryMessage" []

/-- okdmr/kaitai/motorola/automatic_registration_service.py:37-51 the object in the union. -/
def AutomaticRegistrationService.PduContentUnion.toPy : AutomaticRegistrationService.PduContentUnion → PyVal
  | .deviceRegistrationMessage x => AutomaticRegistrationService.DeviceRegistrationMessage.toPy x
  | .deviceDeregistrationMessage x => AutomaticRegistrationService.DeviceDeregistrationMessage.toPy x
  | .arsQueryMessage x => AutomaticRegistrationService.ArsQueryMessage.toPy x
  | .acknowledgementMessage x => AutomaticRegistrationService.AcknowledgementMessage.toPy x

/-- okdmr/kaitai/motorola/automatic_registration_service.py:30-52 `AutomaticRegistrationService` as a Python object. -/
def AutomaticRegistrationService.toPy (x : AutomaticRegistrationService) : PyVal :=
  .object "Motorola.AutomaticRegistrationService"
    [PyVal.attr "message_size" (.int (Int.ofNat x.message_size)),
     PyVal.attr "message_header" (AutomaticRegistrationService.MessageHeaderBits.toPy x.message_header),
     PyVal.optAttr "pdu_content" (x.pdu_content.map fun y => AutomaticRegistrationService.PduContentUnion.toPy y),
     PyVal.attr "unparsed_data" (.bytes x.unparsed_data)]

end Dmr.Motorola

namespace Dmr.Motorola

/-- okdmr/kaitai/motorola/motorola_binary_xml.py:206-208 `MotorolaBinaryXml.OpaqueElementValue` as a Python object. -/
def MotorolaBinaryXml.OpaqueElementValue.toPy (x : MotorolaBinaryXml.OpaqueElementValue) : PyVal :=
  .object "Motorola.MotorolaBinaryXml.OpaqueElementValue"
    [PyVal.attr "len_value" (.int (Int.ofNat x.len_value)),
     PyVal.attr "value" (.bytes x.value)]

/-- okdmr/kaitai/motorola/motorola_binary_xml.py:124-125 `MotorolaBinaryXml.Opaque1byteValue` as a Python object. -/
def MotorolaBinaryXml.Opaque1byteValue.toPy (x : MotorolaBinaryXml.Opaque1byteValue) : PyVal :=
  .object "Motorola.MotorolaBinaryXml.Opaque1byteValue"
    [PyVal.attr "value" (.bytes x.value)]

/-- okdmr/kaitai/motorola/motorola_binary_xml.py:138-146 `MotorolaBinaryXml.Uintvar` as a Python object. -/
def MotorolaBinaryXml.Uintvar.toPy (x : MotorolaBinaryXml.Uintvar) : PyVal :=
  .object "Motorola.MotorolaBinaryXml.Uintvar"
    [PyVal.attr "payload" (.list (List.map (fun y => .int (Int.ofNat y)) x.payload))]

/-- okdmr/kaitai/motorola/motorola_binary_xml.py:172-175 `MotorolaBinaryXml.ConstantDataTableReference` as a Python object. -/
def MotorolaBinaryXml.ConstantDataTableReference.toPy (x : MotorolaBinaryXml.ConstantDataTableReference) : PyVal :=
  .object "Motorola.MotorolaBinaryXml.ConstantDataTableReference"
    [PyVal.attr "byte_offset_from_cdt_start" (MotorolaBinaryXml.Uintvar.toPy x.byte_offset_from_cdt_start)]

/-- okdmr/kaitai/motorola/motorola_binary_xml.py:80-90 the object in the union. -/
def MotorolaBinaryXml.LrrpElement.LrrpElementDataUnion.toPy : MotorolaBinaryXml.LrrpElement.LrrpElementDataUnion → PyVal
  | .opaqueElementValue x => MotorolaBinaryXml.OpaqueElementValue.toPy x
  | .opaque1byteValue x => MotorolaBinaryXml.Opaque1byteValue.toPy x
  | .constantDataTableReference x => MotorolaBinaryXml.ConstantDataTableReference.toPy x

/-- okdmr/kaitai/motorola/motorola_binary_xml.py:74-90 `MotorolaBinaryXml.LrrpElement` as a Python object. -/
def MotorolaBinaryXml.LrrpElement.toPy (x : MotorolaBinaryXml.LrrpElement) : PyVal :=
  .object "Motorola.MotorolaBinaryXml.LrrpElement"
    [PyVal.attr "lrrp_element_type" (EnumVal.toPy "LrrpElements" x.lrrp_element_type),
     PyVal.optAttr "lrrp_element_data" (x.lrrp_element_data.map fun y => MotorolaBinaryXml.LrrpElement.LrrpElementDataUnion.toPy y)]

/-- okdmr/kaitai/motorola/motorola_binary_xml.py:54-55 `MotorolaBinaryXml.LrrpImmediateRequestNcdt` as a Python object. -/
def MotorolaBinaryXml.LrrpImmediateRequestNcdt.toPy (x : MotorolaBinaryXml.LrrpImmediateRequestNcdt) : PyVal :=
  .object "Motorola.MotorolaBinaryXml.LrrpImmediateRequestNcdt"
    [PyVal.attr "elements" (MotorolaBinaryXml.LrrpElement.toPy x.elements)]

/-- okdmr/kaitai/motorola/motorola_binary_xml.py:64-65 `MotorolaBinaryXml.Opaque3byteValue` as a Python object. -/
def MotorolaBinaryXml.Opaque3byteValue.toPy (x : MotorolaBinaryXml.Opaque3byteValue) : PyVal :=
  .object "Motorola.MotorolaBinaryXml.Opaque3byteValue"
    [PyVal.attr "value" (.bytes x.value)]

/-- okdmr/kaitai/motorola/motorola_binary_xml.py:232-240 `MotorolaBinaryXml.Sintvar` as a Python object. -/
def MotorolaBinaryXml.Sintvar.toPy (x : MotorolaBinaryXml.Sintvar) : PyVal :=
  .object "Motorola.MotorolaBinaryXml.Sintvar"
    [PyVal.attr "payload" (.list (List.map (fun y => .int (Int.ofNat y)) x.payload))]

/-- okdmr/kaitai/motorola/motorola_binary_xml.py:101-105 `MotorolaBinaryXml.Sfloatvar` as a Python object. -/
def MotorolaBinaryXml.Sfloatvar.toPy (x : MotorolaBinaryXml.Sfloatvar) : PyVal :=
  .object "Motorola.MotorolaBinaryXml.Sfloatvar"
    [PyVal.attr "sint_payload" (MotorolaBinaryXml.Sintvar.toPy x.sint_payload),
     PyVal.attr "fraction_payload" (MotorolaBinaryXml.Uintvar.toPy x.fraction_payload)]

/-- okdmr/kaitai/motorola/motorola_binary_xml.py:114-115 `MotorolaBinaryXml.Opaque5byteValue` as a Python object. -/
def MotorolaBinaryXml.Opaque5byteValue.toPy (x : MotorolaBinaryXml.Opaque5byteValue) : PyVal :=
  .object "Motorola.MotorolaBinaryXml.Opaque5byteValue"
    [PyVal.attr "value" (.bytes x.value)]

/-- okdmr/kaitai/motorola/motorola_binary_xml.py:159-163 `MotorolaBinaryXml.Ufloatvar` as a Python object. -/
def MotorolaBinaryXml.Ufloatvar.toPy (x : MotorolaBinaryXml.Ufloatvar) : PyVal :=
  .object "Motorola.MotorolaBinaryXml.Ufloatvar"
    [PyVal.attr "uint_payload" (MotorolaBinaryXml.Uintvar.toPy x.uint_payload),
     PyVal.attr "fraction_payload" (MotorolaBinaryXml.Uintvar.toPy x.fraction_payload)]

/-- okdmr/kaitai/motorola/motorola_binary_xml.py:195-197 the object in the union. -/
def MotorolaBinaryXml.MbxmlDocument.DocumentDataUnion.toPy : MotorolaBinaryXml.MbxmlDocument.DocumentDataUnion → PyVal
  | .lrrpImmediateRequestNcdt x => MotorolaBinaryXml.LrrpImmediateRequestNcdt.toPy x

/-- okdmr/kaitai/motorola/motorola_binary_xml.py:186-197 `MotorolaBinaryXml.MbxmlDocument` as a Python object. -/
def MotorolaBinaryXml.MbxmlDocument.toPy (x : MotorolaBinaryXml.MbxmlDocument) : PyVal :=
  .object "Motorola.MotorolaBinaryXml.MbxmlDocument"
    [PyVal.attr "document_id" (EnumVal.toPy "Docids" x.document_id),
     PyVal.attr "num_document_bytes" (MotorolaBinaryXml.Uintvar.toPy x.num_document_bytes),
     PyVal.optAttr "document_data" (x.document_data.map fun y => MotorolaBinaryXml.MbxmlDocument.DocumentDataUnion.toPy y)]

/-- okdmr/kaitai/motorola/motorola_binary_xml.py:217-218 `MotorolaBinaryXml.Opaque2byteValue` as a Python object. -/
def MotorolaBinaryXml.Opaque2byteValue.toPy (x : MotorolaBinaryXml.Opaque2byteValue) : PyVal :=
  .object "Motorola.MotorolaBinaryXml.Opaque2byteValue"
    [PyVal.attr "value" (.bytes x.value)]

/-- okdmr/kaitai/motorola/motorola_binary_xml.py:249-250 `MotorolaBinaryXml.Opaque4byteValue` as a Python object. -/
def MotorolaBinaryXml.Opaque4byteValue.toPy (x : MotorolaBinaryXml.Opaque4byteValue) : PyVal :=
  .object "Motorola.MotorolaBinaryXml.Opaque4byteValue"
    [PyVal.attr "value" (.bytes x.value)]

/-- okdmr/kaitai/motorola/motorola_binary_xml.py:37-45 `MotorolaBinaryXml` as a Python object. -/
def MotorolaBinaryXml.toPy (x : MotorolaBinaryXml) : PyVal :=
  .object "Motorola.MotorolaBinaryXml"
    [PyVal.attr "documents" (.list (List.map (fun y => MotorolaBinaryXml.MbxmlDocument.toPy y) x.documents))]

end Dmr.Motorola

namespace Dmr.Motorola

/-- okdmr/kaitai/motorola/text_message_protocol.py:127-132 `TextMessageProtocol.MessageHeaderBits` as a Python object. -/
def TextMessageProtocol.MessageHeaderBits.toPy (x : TextMessageProtocol.MessageHeaderBits) : PyVal :=
  .object "Motorola.TextMessageProtocol.MessageHeaderBits"
    [PyVal.attr "extension_bit" (.bool x.extension_bit),
     PyVal.attr "acknowledgement_required" (.bool x.acknowledgement_required),
     PyVal.attr "reserved" (.bool x.reserved),
     PyVal.attr "control_user_bit" (.bool x.control_user_bit),
     PyVal.attr "pdu_type" (.int (Int.ofNat x.pdu_type))]

/-- okdmr/kaitai/motorola/text_message_protocol.py:98-108 `TextMessageProtocol.TextMessageHeaderSequenceAndEncoding` as a Python object. -/
def TextMessageProtocol.TextMessageHeaderSequenceAndEncoding.toPy (x : TextMessageProtocol.TextMessageHeaderSequenceAndEncoding) : PyVal :=
  .object "Motorola.TextMessageProtocol.TextMessageHeaderSequenceAndEncoding"
    [PyVal.attr "has_encoding_header" (.bool x.has_encoding_header),
     PyVal.attr "reserved_1" (.int (Int.ofNat x.reserved_1)),
     PyVal.attr "sequence_number_lsb_bits" (.int (Int.ofNat x.sequence_number_lsb_bits)),
     PyVal.optAttr "header_encoding_extension" (x.header_encoding_extension.map fun y => .bool y),
     PyVal.optAttr "sequence_number_msb_bits" (x.sequence_number_msb_bits.map fun y => .int (Int.ofNat y)),
     PyVal.attr "encoding" (.int (Int.ofNat x.encoding))]

/-- okdmr/kaitai/motorola/text_message_protocol.py:66-74 `TextMessageProtocol.TextMessage` as a Python object. -/
def TextMessageProtocol.TextMessage.toPy (x : TextMessageProtocol.TextMessage) : PyVal :=
  .object "Motorola.TextMessageProtocol.TextMessage"
    [PyVal.optAttr "text_message_header_sequence_and_encoding" (x.text_message_header_sequence_and_encoding.map fun y => TextMessageProtocol.TextMessageHeaderSequenceAndEncoding.toPy y),
     PyVal.attr "text_message" (.str x.text_message)]

/-- okdmr/kaitai/motorola/text_message_protocol.py:202-207 `TextMessageProtocol.TmsServiceAvailabilityHeader` as a Python object. -/
def TextMessageProtocol.TmsServiceAvailabilityHeader.toPy (x : TextMessageProtocol.TmsServiceAvailabilityHeader) : PyVal :=
  .object "Motorola.TextMessageProtocol.TmsServiceAvailabilityHeader"
    [PyVal.attr "extension_bit" (.bool x.extension_bit),
     PyVal.attr "reserved" (.int (Int.ofNat x.reserved)),
     PyVal.attr "device" (EnumVal.toPy "TmsServiceCapability" x.device)]

/-- okdmr/kaitai/motorola/text_message_protocol.py:85-89 `TextMessageProtocol.TmsServiceAvailability` as a Python object. -/
def TextMessageProtocol.TmsServiceAvailability.toPy (x : TextMessageProtocol.TmsServiceAvailability) : PyVal :=
  .object "Motorola.TextMessageProtocol.TmsServiceAvailability"
    [PyVal.optAttr "header" (x.header.map fun y => TextMessageProtocol.TmsServiceAvailabilityHeader.toPy y)]

/-- okdmr/kaitai/motorola/text_message_protocol.py:160-171 `TextMessageProtocol.TmsAcknowledgementHeaderSequenceNumber` as a Python object. -/
def TextMessageProtocol.TmsAcknowledgementHeaderSequenceNumber.toPy (x : TextMessageProtocol.TmsAcknowledgementHeaderSequenceNumber) : PyVal :=
  .object "Motorola.TextMessageProtocol.TmsAcknowledgementHeaderSequenceNumber"
    [PyVal.attr "has_msb_header" (.bool x.has_msb_header),
     PyVal.attr "header_lsb_reserved" (.int (Int.ofNat x.header_lsb_reserved)),
     PyVal.attr "header_lsb_bits" (.int (Int.ofNat x.header_lsb_bits)),
     PyVal.optAttr "header_msb_extension" (x.header_msb_extension.map fun y => .bool y),
     PyVal.optAttr "header_msb_bits" (x.header_msb_bits.map fun y => .int (Int.ofNat y)),
     PyVal.optAttr "header_msb_reserved" (x.header_msb_reserved.map fun y => .int (Int.ofNat y))]

/-- okdmr/kaitai/motorola/text_message_protocol.py:143-149 `TextMessageProtocol.TmsAcknowledgement` as a Python object. -/
def TextMessageProtocol.TmsAcknowledgement.toPy (x : TextMessageProtocol.TmsAcknowledgement) : PyVal :=
  .object "Motorola.TextMessageProtocol.TmsAcknowledgement"
    [PyVal.optAttr "tms_acknowledgement_header_sequence_number" (x.tms_acknowledgement_header_sequence_number.map fun y => TextMessageProtocol.TmsAcknowledgementHeaderSequenceNumber.toPy y)]

/-- okdmr/kaitai/motorola/text_message_protocol.py:192-193 `TextMessageProtocol.TmsServiceAvailabilityAcknowledgement` as a Python object. -/
def TextMessageProtocol.TmsServiceAvailabilityAcknowledgement.toPy (_x : TextMessageProtocol.TmsServiceAvailabilityAcknowledgement) : PyVal :=
  .object "Motorola.TextMessageProtocol.TmsServiceAvailabilityAcknowledgement" []

/-- okdmr/kaitai/motorola/text_message_protocol.py:38-54 the object in the union. -/
def TextMessageProtocol.PduContentUnion.toPy : TextMessageProtocol.PduContentUnion → PyVal
  | .tmsServiceAvailability x => TextMessageProtocol.TmsServiceAvailability.toPy x
  | .tmsAcknowledgement x => TextMessageProtocol.TmsAcknowledgement.toPy x
  | .textMessage x => TextMessageProtocol.TextMessage.toPy x

/-- okdmr/kaitai/motorola/text_message_protocol.py:29-55 `TextMessageProtocol` as a Python object. -/
def TextMessageProtocol.toPy (x : TextMessageProtocol) : PyVal :=
  .object "Motorola.TextMessageProtocol"
    [PyVal.attr "message_size" (.int (Int.ofNat x.message_size)),
     PyVal.attr "message_header" (TextMessageProtocol.MessageHeaderBits.toPy x.message_header),
     PyVal.attr "len_address" (.int (Int.ofNat x.len_address)),
     PyVal.optAttr "address" (x.address.map fun y => .bytes y),
     PyVal.attr "_m_custom_pdu_type" (.int (Int.ofNat (TextMessageProtocol.customPduType x.message_header))),
     PyVal.optAttr "pdu_content" (x.pdu_content.map fun y => TextMessageProtocol.PduContentUnion.toPy y),
     PyVal.attr "unparsed_data" (.bytes x.unparsed_data)]

end Dmr.Motorola
