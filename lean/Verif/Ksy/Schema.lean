import Verif.Ksy.Lang
/-
The schemas okdmr/kaitai/*/*.ksy as data (generated by tools/ksy2lean.py from the YAML text).
-/

namespace Dmr.Ksy.Hytera

/-- okdmr/kaitai/hytera/radio_ip.ksy:1-20 type `radio_ip`. -/
def RadioIp : TypeDef where
  name := "Hytera.RadioIp"
  seq := [{ id := "subnet", ty := .prim .u1 },
    { id := "radio_id_1", ty := .prim .u1 },
    { id := "radio_id_2", ty := .prim .u1 },
    { id := "radio_id_3", ty := .prim .u1 }]
  instances := [("radio_id", .value (.bin .add (.bin .add (.bin .shl (.field "radio_id_1") (.int 16)) (.bin .shl (.field "radio_id_2") (.int 8))) (.field "radio_id_3"))),
    ("radio_ip", .value (.bin .add (.bin .add (.bin .add (.bin .add (.bin .add (.bin .add (.toS (.field "subnet")) (.str ".".toList)) (.toS (.field "radio_id_1"))) (.str ".".toList)) (.toS (.field "radio_id_2"))) (.str ".".toList)) (.toS (.field "radio_id_3"))))]
  top := true

end Dmr.Ksy.Hytera

namespace Dmr.Ksy.Hytera

/-- okdmr/kaitai/hytera/data_delivery_states.ksy:7-10 enum `state_types`. -/
def DataDeliveryStates.StateTypes : EnumDef where
  name := "StateTypes"
  members := [(8, "location_protocol_state"), (17, "radio_registration_service_state"), (18, "telemetry_protocol_state"), (19, "data_transmit_protocol_state")]

/-- okdmr/kaitai/hytera/data_delivery_states.ksy:12-20 enum `results`. -/
def DataDeliveryStates.Results : EnumDef where
  name := "Results"
  members := [(0, "ok"), (1, "fail"), (4, "limited_timeout"), (5, "no_ack"), (6, "error_ack"), (7, "repeater_wakeup_fail"), (8, "tx_interrupted"), (9, "tx_deny"), (10, "invalid_params")]

/-- okdmr/kaitai/hytera/data_delivery_states.ksy:1-38 type `data_delivery_states`. -/
def DataDeliveryStates : TypeDef where
  name := "Hytera.DataDeliveryStates"
  seq := [{ id := "reserved", ty := .bytes (.int 1) },
    { id := "state_type", ty := .primEnum .u1 DataDeliveryStates.StateTypes },
    { id := "message_length", ty := .prim .u2be },
    { id := "radio_ip", ty := .user RadioIp },
    { id := "protocol_opcode", ty := .prim .u2be },
    { id := "result", ty := .primEnum .u1 DataDeliveryStates.Results }]
  instances := []
  top := true

end Dmr.Ksy.Hytera

namespace Dmr.Ksy.Hytera

/-- okdmr/kaitai/hytera/data_transmit_protocol.ksy:7-7 enum `service_types`. -/
def DataTransmitProtocol.ServiceTypes : EnumDef where
  name := "ServiceTypes"
  members := [(160, "data_transmit_protocol")]

/-- okdmr/kaitai/hytera/data_transmit_protocol.ksy:9-14 enum `service_specific_types`. -/
def DataTransmitProtocol.ServiceSpecificTypes : EnumDef where
  name := "ServiceSpecificTypes"
  members := [(1, "dtp_request"), (17, "dtp_answer"), (2, "data_slice_transmit"), (18, "data_slice_answer"), (3, "last_data_slice"), (19, "last_data_slice_answer")]

/-- okdmr/kaitai/hytera/data_transmit_protocol.ksy:16-17 enum `results`. -/
def DataTransmitProtocol.Results : EnumDef where
  name := "Results"
  members := [(0, "success"), (1, "failure")]

/-- okdmr/kaitai/hytera/data_transmit_protocol.ksy:20-32 type `dtp_request`. -/
def DataTransmitProtocol.DtpRequest : TypeDef where
  name := "Hytera.DataTransmitProtocol.DtpRequest"
  seq := [{ id := "destination_ip", ty := .user RadioIp },
    { id := "source_ip", ty := .user RadioIp },
    { id := "file_size", ty := .prim .u2be },
    { id := "file_name", ty := .str (.bin .sub (.parent "message_length") (.int 10)) .utf16le }]
  instances := []
  top := false

/-- okdmr/kaitai/hytera/data_transmit_protocol.ksy:34-41 type `dtp_answer`. -/
def DataTransmitProtocol.DtpAnswer : TypeDef where
  name := "Hytera.DataTransmitProtocol.DtpAnswer"
  seq := [{ id := "destination_ip", ty := .user RadioIp },
    { id := "source_ip", ty := .user RadioIp },
    { id := "result", ty := .primEnum .u1 DataTransmitProtocol.Results }]
  instances := []
  top := false

/-- okdmr/kaitai/hytera/data_transmit_protocol.ksy:43-53 type `data_slice_transmit`. -/
def DataTransmitProtocol.DataSliceTransmit : TypeDef where
  name := "Hytera.DataTransmitProtocol.DataSliceTransmit"
  seq := [{ id := "destination_ip", ty := .user RadioIp },
    { id := "source_ip", ty := .user RadioIp },
    { id := "block_number", ty := .prim .u2be },
    { id := "file_data", ty := .bytes (.bin .sub (.parent "message_length") (.int 10)) }]
  instances := []
  top := false

/-- okdmr/kaitai/hytera/data_transmit_protocol.ksy:55-66 type `data_slice_answer`. -/
def DataTransmitProtocol.DataSliceAnswer : TypeDef where
  name := "Hytera.DataTransmitProtocol.DataSliceAnswer"
  seq := [{ id := "destination_ip", ty := .user RadioIp },
    { id := "source_ip", ty := .user RadioIp },
    { id := "block_number", ty := .prim .u2be },
    { id := "result", ty := .primEnum .u1 DataTransmitProtocol.Results }]
  instances := []
  top := false

/-- okdmr/kaitai/hytera/data_transmit_protocol.ksy:68-75 type `last_data_slice`. -/
def DataTransmitProtocol.LastDataSlice : TypeDef where
  name := "Hytera.DataTransmitProtocol.LastDataSlice"
  seq := [{ id := "destination_ip", ty := .user RadioIp },
    { id := "source_ip", ty := .user RadioIp }]
  instances := []
  top := false

/-- okdmr/kaitai/hytera/data_transmit_protocol.ksy:77-86 type `last_data_slice_answer`. -/
def DataTransmitProtocol.LastDataSliceAnswer : TypeDef where
  name := "Hytera.DataTransmitProtocol.LastDataSliceAnswer"
  seq := [{ id := "destination_ip", ty := .user RadioIp },
    { id := "source_ip", ty := .user RadioIp },
    { id := "result", ty := .primEnum .u1 DataTransmitProtocol.Results }]
  instances := []
  top := false

/-- okdmr/kaitai/hytera/data_transmit_protocol.ksy:1-108 type `data_transmit_protocol`. -/
def DataTransmitProtocol : TypeDef where
  name := "Hytera.DataTransmitProtocol"
  seq := [{ id := "service_type", ty := .primEnum .u1 DataTransmitProtocol.ServiceTypes },
    { id := "service_specific_type", ty := .primEnum .u1 DataTransmitProtocol.ServiceSpecificTypes },
    { id := "message_length", ty := .prim .u2be },
    { id := "data", ty := .switch (.field "service_specific_type") [((.enum DataTransmitProtocol.ServiceSpecificTypes "dtp_request"), DataTransmitProtocol.DtpRequest), ((.enum DataTransmitProtocol.ServiceSpecificTypes "dtp_answer"), DataTransmitProtocol.DtpAnswer), ((.enum DataTransmitProtocol.ServiceSpecificTypes "data_slice_transmit"), DataTransmitProtocol.DataSliceTransmit), ((.enum DataTransmitProtocol.ServiceSpecificTypes "data_slice_answer"), DataTransmitProtocol.DataSliceAnswer), ((.enum DataTransmitProtocol.ServiceSpecificTypes "last_data_slice"), DataTransmitProtocol.LastDataSlice), ((.enum DataTransmitProtocol.ServiceSpecificTypes "last_data_slice_answer"), DataTransmitProtocol.LastDataSliceAnswer)] none }]
  instances := []
  top := true

end Dmr.Ksy.Hytera

namespace Dmr.Ksy.Hytera

/-- okdmr/kaitai/hytera/datetimestring.ksy:1-9 type `datetimestring`. -/
def Datetimestring : TypeDef where
  name := "Hytera.Datetimestring"
  seq := [{ id := "datetime", ty := .str (.int 14) .utf8 }]
  instances := []
  top := true

end Dmr.Ksy.Hytera

namespace Dmr.Ksy.Hytera

/-- okdmr/kaitai/hytera/gpsdata.ksy:1-36 type `gpsdata`. -/
def Gpsdata : TypeDef where
  name := "Hytera.Gpsdata"
  seq := [{ id := "gps_status", ty := .bytes (.int 1) },
    { id := "gps_time", ty := .bytes (.int 6) },
    { id := "gps_date", ty := .bytes (.int 6) },
    { id := "north_south", ty := .bytes (.int 1) },
    { id := "latitude", ty := .bytes (.int 9) },
    { id := "east_west", ty := .bytes (.int 1) },
    { id := "longitude", ty := .bytes (.int 10) },
    { id := "speed", ty := .bytes (.int 3) },
    { id := "direction", ty := .bytes (.int 3) }]
  instances := [("gps_available", .value (.bin .eq (.decode (.field "gps_status") .ascii) (.str "A".toList)))]
  top := true

end Dmr.Ksy.Hytera

namespace Dmr.Ksy.Hytera

/-- okdmr/kaitai/hytera/intervalstring.ksy:1-10 type `intervalstring`. -/
def Intervalstring : TypeDef where
  name := "Hytera.Intervalstring"
  seq := [{ id := "interval", ty := .str (.int 8) .utf8 }]
  instances := []
  top := true

end Dmr.Ksy.Hytera

namespace Dmr.Ksy.Hytera

/-- okdmr/kaitai/hytera/location_protocol.ksy:11-15 enum `lp_general_types`. -/
def LocationProtocol.LpGeneralTypes : EnumDef where
  name := "LpGeneralTypes"
  members := [(160, "standard_location_immediate_service"), (176, "emergency_location_reporting_service"), (192, "triggered_location_reporting_service"), (208, "condition_triggered_reporting_service"), (224, "rssi_report_configuring_service")]

/-- okdmr/kaitai/hytera/location_protocol.ksy:17-34 enum `lp_specific_types`. -/
def LocationProtocol.LpSpecificTypes : EnumDef where
  name := "LpSpecificTypes"
  members := [(40961, "standard_request"), (40962, "standard_answer"), (40963, "standard_answer_with_rssi"), (40964, "standard_answer_gps_bt"), (45057, "emergency_report_stop_request"), (45058, "emergency_report_stop_answer"), (45059, "emergency_report"), (49153, "triggered_report_request"), (49154, "triggered_report_answer"), (49155, "triggered_report"), (49156, "triggered_report_stop_request"), (49157, "triggered_report_stop_answer"), (53249, "condition_report_request"), (53250, "condition_report_answer"), (53251, "condition_report"), (53252, "condition_report_with_rssi"), (53265, "condition_quick_gps_request"), (53266, "condition_quick_gps_answer")]

/-- okdmr/kaitai/hytera/location_protocol.ksy:36-37 enum `cmd_types`. -/
def LocationProtocol.CmdTypes : EnumDef where
  name := "CmdTypes"
  members := [(0, "cancel_request"), (1, "start_request")]

/-- okdmr/kaitai/hytera/location_protocol.ksy:39-43 enum `trigger_types`. -/
def LocationProtocol.TriggerTypes : EnumDef where
  name := "TriggerTypes"
  members := [(0, "cancel_request"), (1, "distance"), (2, "time"), (3, "distance_and_time"), (4, "distance_or_time")]

/-- okdmr/kaitai/hytera/location_protocol.ksy:45-47 enum `result_codes`. -/
def LocationProtocol.ResultCodes : EnumDef where
  name := "ResultCodes"
  members := [(0, "ok"), (6, "position_method_failure"), (105, "request_format_error")]

/-- okdmr/kaitai/hytera/location_protocol.ksy:78-82 type `standard_request`. -/
def LocationProtocol.StandardRequest : TypeDef where
  name := "Hytera.LocationProtocol.StandardRequest"
  seq := [{ id := "request_id", ty := .prim .u4be },
    { id := "radio_ip", ty := .user RadioIp }]
  instances := []
  top := false

/-- okdmr/kaitai/hytera/location_protocol.ksy:84-93 type `standard_answer`. -/
def LocationProtocol.StandardAnswer : TypeDef where
  name := "Hytera.LocationProtocol.StandardAnswer"
  seq := [{ id := "request_id", ty := .prim .u4be },
    { id := "radio_ip", ty := .user RadioIp },
    { id := "result", ty := .primEnum .u2be LocationProtocol.ResultCodes },
    { id := "gpsdata", ty := .user Gpsdata }]
  instances := []
  top := false

/-- okdmr/kaitai/hytera/location_protocol.ksy:95-107 type `standard_answer_with_rssi`. -/
def LocationProtocol.StandardAnswerWithRssi : TypeDef where
  name := "Hytera.LocationProtocol.StandardAnswerWithRssi"
  seq := [{ id := "request_id", ty := .prim .u4be },
    { id := "radio_ip", ty := .user RadioIp },
    { id := "result", ty := .primEnum .u2be LocationProtocol.ResultCodes },
    { id := "gpsdata", ty := .user Gpsdata },
    { id := "rssi_value", ty := .prim .s2be }]
  instances := []
  top := false

/-- okdmr/kaitai/hytera/location_protocol.ksy:109-113 type `emergency_report_stop_request`. -/
def LocationProtocol.EmergencyReportStopRequest : TypeDef where
  name := "Hytera.LocationProtocol.EmergencyReportStopRequest"
  seq := [{ id := "request_id", ty := .prim .u4be },
    { id := "radio_ip", ty := .user RadioIp }]
  instances := []
  top := false

/-- okdmr/kaitai/hytera/location_protocol.ksy:115-122 type `emergency_report_stop_answer`. -/
def LocationProtocol.EmergencyReportStopAnswer : TypeDef where
  name := "Hytera.LocationProtocol.EmergencyReportStopAnswer"
  seq := [{ id := "request_id", ty := .prim .u4be },
    { id := "radio_ip", ty := .user RadioIp },
    { id := "result", ty := .primEnum .u2be LocationProtocol.ResultCodes }]
  instances := []
  top := false

/-- okdmr/kaitai/hytera/location_protocol.ksy:124-130 type `emergency_report`. -/
def LocationProtocol.EmergencyReport : TypeDef where
  name := "Hytera.LocationProtocol.EmergencyReport"
  seq := [{ id := "radio_ip", ty := .user RadioIp },
    { id := "emergency_type", ty := .prim .u1 },
    { id := "gpsdata", ty := .user Gpsdata }]
  instances := []
  top := false

/-- okdmr/kaitai/hytera/location_protocol.ksy:132-142 type `triggered_report_request`. -/
def LocationProtocol.TriggeredReportRequest : TypeDef where
  name := "Hytera.LocationProtocol.TriggeredReportRequest"
  seq := [{ id := "request_id", ty := .prim .u4be },
    { id := "radio_ip", ty := .user RadioIp },
    { id := "start_time", ty := .user Datetimestring },
    { id := "stop_time", ty := .user Datetimestring },
    { id := "interval", ty := .user Intervalstring }]
  instances := []
  top := false

/-- okdmr/kaitai/hytera/location_protocol.ksy:144-151 type `triggered_report_answer`. -/
def LocationProtocol.TriggeredReportAnswer : TypeDef where
  name := "Hytera.LocationProtocol.TriggeredReportAnswer"
  seq := [{ id := "request_id", ty := .prim .u4be },
    { id := "radio_ip", ty := .user RadioIp },
    { id := "result", ty := .primEnum .u2be LocationProtocol.ResultCodes }]
  instances := []
  top := false

/-- okdmr/kaitai/hytera/location_protocol.ksy:153-161 type `triggered_report`. -/
def LocationProtocol.TriggeredReport : TypeDef where
  name := "Hytera.LocationProtocol.TriggeredReport"
  seq := [{ id := "request_id", ty := .prim .u4be },
    { id := "radio_ip", ty := .user RadioIp },
    { id := "time_remaining", ty := .user Intervalstring },
    { id := "gpsdata", ty := .user Gpsdata }]
  instances := []
  top := false

/-- okdmr/kaitai/hytera/location_protocol.ksy:163-167 type `triggered_report_stop_request`. -/
def LocationProtocol.TriggeredReportStopRequest : TypeDef where
  name := "Hytera.LocationProtocol.TriggeredReportStopRequest"
  seq := [{ id := "request_id", ty := .prim .u4be },
    { id := "radio_ip", ty := .user RadioIp }]
  instances := []
  top := false

/-- okdmr/kaitai/hytera/location_protocol.ksy:169-176 type `triggered_report_stop_answer`. -/
def LocationProtocol.TriggeredReportStopAnswer : TypeDef where
  name := "Hytera.LocationProtocol.TriggeredReportStopAnswer"
  seq := [{ id := "request_id", ty := .prim .u4be },
    { id := "radio_ip", ty := .user RadioIp },
    { id := "result", ty := .primEnum .u2be LocationProtocol.ResultCodes }]
  instances := []
  top := false

/-- okdmr/kaitai/hytera/location_protocol.ksy:178-194 type `condition_report_request`. -/
def LocationProtocol.ConditionReportRequest : TypeDef where
  name := "Hytera.LocationProtocol.ConditionReportRequest"
  seq := [{ id := "request_id", ty := .prim .u4be },
    { id := "radio_ip", ty := .user RadioIp },
    { id := "trigger_type", ty := .prim .u1 },
    { id := "distance", ty := .prim .u4be },
    { id := "start_time", ty := .user Datetimestring },
    { id := "stop_time", ty := .user Datetimestring },
    { id := "interval", ty := .user Intervalstring },
    { id := "max_interval", ty := .user Intervalstring }]
  instances := []
  top := false

/-- okdmr/kaitai/hytera/location_protocol.ksy:196-206 type `condition_report_answer`. -/
def LocationProtocol.ConditionReportAnswer : TypeDef where
  name := "Hytera.LocationProtocol.ConditionReportAnswer"
  seq := [{ id := "request_id", ty := .prim .u4be },
    { id := "radio_ip", ty := .user RadioIp },
    { id := "trigger_type", ty := .primEnum .u1 LocationProtocol.TriggerTypes },
    { id := "result", ty := .primEnum .u2be LocationProtocol.ResultCodes }]
  instances := []
  top := false

/-- okdmr/kaitai/hytera/location_protocol.ksy:208-214 type `condition_report`. -/
def LocationProtocol.ConditionReport : TypeDef where
  name := "Hytera.LocationProtocol.ConditionReport"
  seq := [{ id := "request_id", ty := .prim .u4be },
    { id := "radio_ip", ty := .user RadioIp },
    { id := "gpsdata", ty := .user Gpsdata }]
  instances := []
  top := false

/-- okdmr/kaitai/hytera/location_protocol.ksy:216-228 type `condition_report_with_rssi`. -/
def LocationProtocol.ConditionReportWithRssi : TypeDef where
  name := "Hytera.LocationProtocol.ConditionReportWithRssi"
  seq := [{ id := "request_id", ty := .prim .u4be },
    { id := "radio_ip", ty := .user RadioIp },
    { id := "result", ty := .primEnum .u2be LocationProtocol.ResultCodes },
    { id := "gpsdata", ty := .user Gpsdata },
    { id := "rssi_value", ty := .prim .s2be }]
  instances := []
  top := false

/-- okdmr/kaitai/hytera/location_protocol.ksy:242-256 type `quick_gps_payload`. -/
def LocationProtocol.QuickGpsPayload : TypeDef where
  name := "Hytera.LocationProtocol.QuickGpsPayload"
  seq := [{ id := "start_time", ty := .user Datetimestring },
    { id := "stop_time", ty := .user Datetimestring },
    { id := "interval", ty := .user Intervalstring },
    { id := "send_step", ty := .prim .u2be },
    { id := "channel_use_percentage", ty := .prim .u1 },
    { id := "send_order", ty := .prim .u2be }]
  instances := []
  top := false

/-- okdmr/kaitai/hytera/location_protocol.ksy:230-240 type `condition_quick_gps_request`. -/
def LocationProtocol.ConditionQuickGpsRequest : TypeDef where
  name := "Hytera.LocationProtocol.ConditionQuickGpsRequest"
  seq := [{ id := "request_id", ty := .prim .u4be },
    { id := "radio_ip", ty := .user RadioIp },
    { id := "cmd_type", ty := .primEnum .u1 LocationProtocol.CmdTypes },
    { id := "quick_gps_payload", ty := .user LocationProtocol.QuickGpsPayload, cond := some (.bin .eq (.field "cmd_type") (.enum LocationProtocol.CmdTypes "start_request")) }]
  instances := []
  top := false

/-- okdmr/kaitai/hytera/location_protocol.ksy:258-268 type `condition_quick_gps_answer`. -/
def LocationProtocol.ConditionQuickGpsAnswer : TypeDef where
  name := "Hytera.LocationProtocol.ConditionQuickGpsAnswer"
  seq := [{ id := "request_id", ty := .prim .u4be },
    { id := "radio_ip", ty := .user RadioIp },
    { id := "cmd_type", ty := .primEnum .u1 LocationProtocol.CmdTypes },
    { id := "result", ty := .primEnum .u2be LocationProtocol.ResultCodes }]
  instances := []
  top := false

/-- okdmr/kaitai/hytera/location_protocol.ksy:1-273 type `location_protocol`. -/
def LocationProtocol : TypeDef where
  name := "Hytera.LocationProtocol"
  seq := [{ id := "opcode_header", ty := .primEnum .u2be LocationProtocol.LpSpecificTypes },
    { id := "message_length", ty := .prim .u2be },
    { id := "data", ty := .switch (.field "opcode_header") [((.enum LocationProtocol.LpSpecificTypes "standard_request"), LocationProtocol.StandardRequest), ((.enum LocationProtocol.LpSpecificTypes "standard_answer"), LocationProtocol.StandardAnswer), ((.enum LocationProtocol.LpSpecificTypes "standard_answer_with_rssi"), LocationProtocol.StandardAnswerWithRssi), ((.enum LocationProtocol.LpSpecificTypes "emergency_report_stop_request"), LocationProtocol.EmergencyReportStopRequest), ((.enum LocationProtocol.LpSpecificTypes "emergency_report_stop_answer"), LocationProtocol.EmergencyReportStopAnswer), ((.enum LocationProtocol.LpSpecificTypes "emergency_report"), LocationProtocol.EmergencyReport), ((.enum LocationProtocol.LpSpecificTypes "triggered_report_request"), LocationProtocol.TriggeredReportRequest), ((.enum LocationProtocol.LpSpecificTypes "triggered_report_answer"), LocationProtocol.TriggeredReportAnswer), ((.enum LocationProtocol.LpSpecificTypes "triggered_report"), LocationProtocol.TriggeredReport), ((.enum LocationProtocol.LpSpecificTypes "triggered_report_stop_request"), LocationProtocol.TriggeredReportStopRequest), ((.enum LocationProtocol.LpSpecificTypes "triggered_report_stop_answer"), LocationProtocol.TriggeredReportStopAnswer), ((.enum LocationProtocol.LpSpecificTypes "condition_report_request"), LocationProtocol.ConditionReportRequest), ((.enum LocationProtocol.LpSpecificTypes "condition_report_answer"), LocationProtocol.ConditionReportAnswer), ((.enum LocationProtocol.LpSpecificTypes "condition_report"), LocationProtocol.ConditionReport), ((.enum LocationProtocol.LpSpecificTypes "condition_report_with_rssi"), LocationProtocol.ConditionReportWithRssi), ((.enum LocationProtocol.LpSpecificTypes "condition_quick_gps_request"), LocationProtocol.ConditionQuickGpsRequest), ((.enum LocationProtocol.LpSpecificTypes "condition_quick_gps_answer"), LocationProtocol.ConditionQuickGpsAnswer)] none }]
  instances := [("opcode", .at (.int 0) (.primEnum .u1 LocationProtocol.LpGeneralTypes) none)]
  top := true

end Dmr.Ksy.Hytera

namespace Dmr.Ksy.Hytera

/-- okdmr/kaitai/hytera/radio_registration_service.ksy:7-11 enum `rrs_types`. -/
def RadioRegistrationService.RrsTypes : EnumDef where
  name := "RrsTypes"
  members := [(3, "registration"), (128, "registration_ack"), (1, "de_registration"), (2, "online_check"), (130, "online_check_ack")]

/-- okdmr/kaitai/hytera/radio_registration_service.ksy:1-30 type `radio_registration_service`. -/
def RadioRegistrationService : TypeDef where
  name := "Hytera.RadioRegistrationService"
  seq := [{ id := "opcode", ty := .contents [0x00] "/seq/0" },
    { id := "rrs_type", ty := .primEnum .u1 RadioRegistrationService.RrsTypes },
    { id := "message_length", ty := .prim .u2be },
    { id := "radio_ip", ty := .user RadioIp },
    { id := "result", ty := .prim .u1, cond := some (.bin .or (.bin .eq (.field "rrs_type") (.enum RadioRegistrationService.RrsTypes "registration_ack")) (.bin .eq (.field "rrs_type") (.enum RadioRegistrationService.RrsTypes "online_check_ack"))) },
    { id := "valid_time", ty := .prim .u4be, cond := some (.bin .eq (.field "rrs_type") (.enum RadioRegistrationService.RrsTypes "registration_ack")) }]
  instances := []
  top := true

end Dmr.Ksy.Hytera

namespace Dmr.Ksy.Hytera

/-- okdmr/kaitai/hytera/text_message_protocol.ksy:7-8 enum `ack_flags`. -/
def TextMessageProtocol.AckFlags : EnumDef where
  name := "AckFlags"
  members := [(0, "ack_required"), (1, "ack_not_required")]

/-- okdmr/kaitai/hytera/text_message_protocol.ksy:10-11 enum `option_flags`. -/
def TextMessageProtocol.OptionFlags : EnumDef where
  name := "OptionFlags"
  members := [(0, "option_len_and_field_disabled"), (1, "option_len_and_field_enabled")]

/-- okdmr/kaitai/hytera/text_message_protocol.ksy:13-16 enum `service_types`. -/
def TextMessageProtocol.ServiceTypes : EnumDef where
  name := "ServiceTypes"
  members := [(161, "send_private_message"), (162, "send_private_message_ack"), (177, "send_group_message"), (178, "send_group_message_ack")]

/-- okdmr/kaitai/hytera/text_message_protocol.ksy:18-29 enum `result_codes`. -/
def TextMessageProtocol.ResultCodes : EnumDef where
  name := "ResultCodes"
  members := [(0, "ok"), (1, "fail"), (3, "invalid_params"), (4, "channel_busy"), (5, "rx_only"), (6, "low_battery"), (7, "pll_unlock"), (8, "private_call_no_ack"), (9, "repeater_wakeup_fail"), (10, "no_contact"), (11, "tx_deny"), (12, "tx_interrupted")]

/-- okdmr/kaitai/hytera/text_message_protocol.ksy:1-76 type `text_message_protocol`. -/
def TextMessageProtocol : TypeDef where
  name := "Hytera.TextMessageProtocol"
  seq := [{ id := "ack_flag", ty := .bitsEnum 1 TextMessageProtocol.AckFlags },
    { id := "option_flag", ty := .bitsEnum 1 TextMessageProtocol.OptionFlags },
    { id := "reserved", ty := .bits 6 },
    { id := "service_type", ty := .primEnum .u1 TextMessageProtocol.ServiceTypes },
    { id := "message_length", ty := .prim .u2be },
    { id := "option_field_len", ty := .prim .u2be, cond := some (.bin .eq (.toI (.field "option_flag")) (.int 1)) },
    { id := "request_id", ty := .prim .u4be },
    { id := "destination_ip", ty := .user RadioIp },
    { id := "source_ip", ty := .user RadioIp, cond := some (.bin .ne (.field "service_type") (.enum TextMessageProtocol.ServiceTypes "send_group_message_ack")) },
    { id := "result", ty := .primEnum .u1 TextMessageProtocol.ResultCodes, cond := some (.bin .or (.bin .eq (.field "service_type") (.enum TextMessageProtocol.ServiceTypes "send_private_message_ack")) (.bin .eq (.field "service_type") (.enum TextMessageProtocol.ServiceTypes "send_group_message_ack"))) },
    { id := "tmdata", ty := .str (.bin .sub (.bin .sub (.bin .sub (.bin .sub (.field "message_length") (.int 4)) (.int 4)) (.int 4)) (.field "option_sum_len")) .utf16le, cond := some (.bin .or (.bin .eq (.field "service_type") (.enum TextMessageProtocol.ServiceTypes "send_private_message")) (.bin .eq (.field "service_type") (.enum TextMessageProtocol.ServiceTypes "send_group_message"))) },
    { id := "option_field", ty := .str (.field "option_field_len") .utf16le, cond := some (.bin .eq (.toI (.field "option_flag")) (.int 1)) }]
  instances := [("option_sum_len", .value (.cond (.bin .eq (.toI (.field "option_flag")) (.int 1)) (.bin .add (.field "option_field_len") (.int 2)) (.int 0)))]
  top := true

end Dmr.Ksy.Hytera

namespace Dmr.Ksy.Hytera

/-- okdmr/kaitai/hytera/telemetry_protocol.ksy:7-8 enum `service_types`. -/
def TelemetryProtocol.ServiceTypes : EnumDef where
  name := "ServiceTypes"
  members := [(160, "status_report_service"), (176, "remote_control_service")]

/-- okdmr/kaitai/hytera/telemetry_protocol.ksy:10-14 enum `service_specific_types`. -/
def TelemetryProtocol.ServiceSpecificTypes : EnumDef where
  name := "ServiceSpecificTypes"
  members := [(40961, "standard_status_request"), (41089, "standard_status_report"), (41090, "extended_status_report"), (45057, "remote_control_request"), (45185, "remote_control_answer")]

/-- okdmr/kaitai/hytera/telemetry_protocol.ksy:16-17 enum `pc_flag_types`. -/
def TelemetryProtocol.PcFlagTypes : EnumDef where
  name := "PcFlagTypes"
  members := [(0, "controller_is_radio"), (1, "controller_is_telemetry_application")]

/-- okdmr/kaitai/hytera/telemetry_protocol.ksy:19-21 enum `call_types`. -/
def TelemetryProtocol.CallTypes : EnumDef where
  name := "CallTypes"
  members := [(0, "private_call"), (1, "group_call"), (2, "all_call")]

/-- okdmr/kaitai/hytera/telemetry_protocol.ksy:23-24 enum `result_types`. -/
def TelemetryProtocol.ResultTypes : EnumDef where
  name := "ResultTypes"
  members := [(0, "effective"), (1, "ineffective")]

/-- okdmr/kaitai/hytera/telemetry_protocol.ksy:26-27 enum `control_result_types`. -/
def TelemetryProtocol.ControlResultTypes : EnumDef where
  name := "ControlResultTypes"
  members := [(0, "success"), (1, "failure")]

/-- okdmr/kaitai/hytera/telemetry_protocol.ksy:29-32 enum `operation_types`. -/
def TelemetryProtocol.OperationTypes : EnumDef where
  name := "OperationTypes"
  members := [(0, "set_ineffective_level"), (1, "set_effective_level"), (2, "reverse_level"), (3, "output_one_pulse")]

/-- okdmr/kaitai/hytera/telemetry_protocol.ksy:40-49 type `vio_extended_status`. -/
def TelemetryProtocol.VioExtendedStatus : TypeDef where
  name := "Hytera.TelemetryProtocol.VioExtendedStatus"
  seq := [{ id := "result", ty := .primEnum .u1 TelemetryProtocol.ResultTypes },
    { id := "message_length", ty := .prim .u2be },
    { id := "message", ty := .str (.field "message_length") .utf16le }]
  instances := []
  top := false

/-- okdmr/kaitai/hytera/telemetry_protocol.ksy:51-64 type `standard_status_request`. -/
def TelemetryProtocol.StandardStatusRequest : TypeDef where
  name := "Hytera.TelemetryProtocol.StandardStatusRequest"
  seq := [{ id := "source_ip", ty := .user RadioIp },
    { id := "target_ip", ty := .user RadioIp },
    { id := "pc_flag", ty := .primEnum .u1 TelemetryProtocol.PcFlagTypes },
    { id := "call_type", ty := .primEnum .u1 TelemetryProtocol.CallTypes },
    { id := "vio_select", ty := .bytes (.int 1) }]
  instances := []
  top := false

/-- okdmr/kaitai/hytera/telemetry_protocol.ksy:66-83 type `standard_status_report`. -/
def TelemetryProtocol.StandardStatusReport : TypeDef where
  name := "Hytera.TelemetryProtocol.StandardStatusReport"
  seq := [{ id := "source_ip", ty := .user RadioIp },
    { id := "target_ip", ty := .user RadioIp },
    { id := "pc_flag", ty := .primEnum .u1 TelemetryProtocol.PcFlagTypes },
    { id := "call_type", ty := .primEnum .u1 TelemetryProtocol.CallTypes },
    { id := "vio_select", ty := .bytes (.int 1) },
    { id := "result", ty := .primEnum .u1 TelemetryProtocol.ResultTypes }]
  instances := []
  top := false

/-- okdmr/kaitai/hytera/telemetry_protocol.ksy:85-101 type `extended_status_report`. -/
def TelemetryProtocol.ExtendedStatusReport : TypeDef where
  name := "Hytera.TelemetryProtocol.ExtendedStatusReport"
  seq := [{ id := "source_ip", ty := .user RadioIp },
    { id := "target_ip", ty := .user RadioIp },
    { id := "pc_flag", ty := .primEnum .u1 TelemetryProtocol.PcFlagTypes },
    { id := "call_type", ty := .primEnum .u1 TelemetryProtocol.CallTypes },
    { id := "vio_select", ty := .bytes (.int 1) },
    { id := "result_messages", ty := .user TelemetryProtocol.VioExtendedStatus }]
  instances := []
  top := false

/-- okdmr/kaitai/hytera/telemetry_protocol.ksy:103-120 type `remote_control_request`. -/
def TelemetryProtocol.RemoteControlRequest : TypeDef where
  name := "Hytera.TelemetryProtocol.RemoteControlRequest"
  seq := [{ id := "source_ip", ty := .user RadioIp },
    { id := "target_ip", ty := .user RadioIp },
    { id := "pc_flag", ty := .primEnum .u1 TelemetryProtocol.PcFlagTypes },
    { id := "call_type", ty := .primEnum .u1 TelemetryProtocol.CallTypes },
    { id := "vio_select", ty := .bytes (.int 1) },
    { id := "operation", ty := .primEnum .u1 TelemetryProtocol.OperationTypes }]
  instances := []
  top := false

/-- okdmr/kaitai/hytera/telemetry_protocol.ksy:122-139 type `remote_control_answer`. -/
def TelemetryProtocol.RemoteControlAnswer : TypeDef where
  name := "Hytera.TelemetryProtocol.RemoteControlAnswer"
  seq := [{ id := "source_ip", ty := .user RadioIp },
    { id := "target_ip", ty := .user RadioIp },
    { id := "pc_flag", ty := .primEnum .u1 TelemetryProtocol.PcFlagTypes },
    { id := "call_type", ty := .primEnum .u1 TelemetryProtocol.CallTypes },
    { id := "vio_select", ty := .bytes (.int 1) },
    { id := "result", ty := .primEnum .u1 TelemetryProtocol.ControlResultTypes }]
  instances := []
  top := false

/-- okdmr/kaitai/hytera/telemetry_protocol.ksy:1-158 type `telemetry_protocol`. -/
def TelemetryProtocol : TypeDef where
  name := "Hytera.TelemetryProtocol"
  seq := [{ id := "service_type_opcode", ty := .primEnum .u1 TelemetryProtocol.ServiceTypes },
    { id := "specific_service_opcode", ty := .prim .u1 },
    { id := "message_length", ty := .prim .u2be },
    { id := "data", ty := .switch (.field "specific_service") [((.enum TelemetryProtocol.ServiceSpecificTypes "standard_status_request"), TelemetryProtocol.StandardStatusRequest), ((.enum TelemetryProtocol.ServiceSpecificTypes "standard_status_report"), TelemetryProtocol.StandardStatusReport), ((.enum TelemetryProtocol.ServiceSpecificTypes "extended_status_report"), TelemetryProtocol.ExtendedStatusReport), ((.enum TelemetryProtocol.ServiceSpecificTypes "remote_control_request"), TelemetryProtocol.RemoteControlRequest), ((.enum TelemetryProtocol.ServiceSpecificTypes "remote_control_answer"), TelemetryProtocol.RemoteControlAnswer)] none }]
  instances := [("specific_service", .at (.int 0) (.primEnum .u2be TelemetryProtocol.ServiceSpecificTypes) none)]
  top := true

end Dmr.Ksy.Hytera

namespace Dmr.Ksy.Hytera

/-- okdmr/kaitai/hytera/radio_control_protocol.ksy:6-65 enum `service_types`. -/
def RadioControlProtocol.ServiceTypes : EnumDef where
  name := "ServiceTypes"
  members := [(4, "radio_identification_request"), (33492, "radio_identification_reply"), (2113, "call_request"), (34881, "call_reply"), (2114, "remove_radio_request"), (34882, "remove_radio_reply"), (4297, "broadcast_status_configuration_request"), (32969, "broadcast_status_configuration_reply"), (47171, "broadcast_transmit_status"), (47428, "broadcast_receive_status"), (47173, "repeater_broadcast_transmit_status"), (65, "button_and_keyboard_operation_request"), (32833, "button_and_keyboard_operation_reply"), (196, "zone_and_channel_operation_request"), (32964, "zone_and_channel_operation_reply"), (513, "radio_message_query_request"), (33281, "radio_message_query_reply"), (231, "channel_status_or_param_check_request"), (32999, "channel_status_or_param_check_reply"), (237, "function_status_check_request"), (33005, "function_status_check_reply"), (238, "function_enable_disable_request"), (33006, "function_enable_disable_reply"), (68, "internal_external_mic_gain_check_control_request"), (32836, "internal_external_mic_gain_check_control_reply"), (67, "internal_external_mic_enable_disable_request"), (32835, "internal_external_mic_enable_disable_reply"), (69, "internal_external_speaker_enable_disable_request"), (32837, "internal_external_speaker_enable_disable_reply"), (70, "volume_check_control_request"), (32838, "volume_check_control_reply"), (305, "channel_alias_request"), (33073, "channel_alias_reply"), (1104, "channel_number_of_zone_request"), (33872, "channel_number_of_zone_reply"), (202, "radio_connect_login_request"), (32970, "radio_connect_login_reply"), (203, "radio_connect_logout_request"), (32971, "radio_connect_logout_reply"), (4295, "radio_status_configure_request"), (32967, "radio_status_configure_reply"), (45256, "radio_status_report"), (192, "radio_configure_over_air_request"), (32960, "radio_configure_over_air_reply"), (2118, "delete_subject_line_message_request"), (34886, "delete_subject_line_message_reply"), (1105, "update_authentication_key_request"), (33873, "update_authentication_key_reply"), (1106, "radio_id_and_radio_ip_query_request"), (33874, "radio_id_and_radio_ip_query_reply"), (2121, "radio_disable"), (34889, "radio_disable_ack"), (2122, "radio_enable"), (34890, "radio_enable_ack"), (2099, "radio_check"), (34867, "radio_check_ack"), (2100, "remote_monitor"), (34868, "remote_monitor_ack"), (2101, "allert_call"), (34869, "alert_call_ack")]

/-- okdmr/kaitai/hytera/radio_control_protocol.ksy:67-75 enum `call_types`. -/
def RadioControlProtocol.CallTypes : EnumDef where
  name := "CallTypes"
  members := [(0, "private_call"), (1, "group_call"), (2, "all_call"), (3, "emergency_group_call"), (4, "remote_monitor_call"), (5, "reserved"), (6, "priority_private_call"), (7, "priority_group_call"), (8, "priority_all_call")]

/-- okdmr/kaitai/hytera/radio_control_protocol.ksy:77-78 enum `reply_results`. -/
def RadioControlProtocol.ReplyResults : EnumDef where
  name := "ReplyResults"
  members := [(0, "success"), (1, "failure")]

/-- okdmr/kaitai/hytera/radio_control_protocol.ksy:81-87 type `call_request`. -/
def RadioControlProtocol.CallRequest : TypeDef where
  name := "Hytera.RadioControlProtocol.CallRequest"
  seq := [{ id := "call_type", ty := .primEnum .u1 RadioControlProtocol.CallTypes },
    { id := "target_id", ty := .prim .u4le }]
  instances := []
  top := false

/-- okdmr/kaitai/hytera/radio_control_protocol.ksy:89-92 type `call_reply`. -/
def RadioControlProtocol.CallReply : TypeDef where
  name := "Hytera.RadioControlProtocol.CallReply"
  seq := [{ id := "result", ty := .primEnum .u1 RadioControlProtocol.ReplyResults }]
  instances := []
  top := false

/-- okdmr/kaitai/hytera/radio_control_protocol.ksy:94-96 type `generic_data`. -/
def RadioControlProtocol.GenericData : TypeDef where
  name := "Hytera.RadioControlProtocol.GenericData"
  seq := [{ id := "data", ty := .bytes (.parent "message_length") }]
  instances := []
  top := false

/-- okdmr/kaitai/hytera/radio_control_protocol.ksy:98-100 type `remove_radio_request`. -/
def RadioControlProtocol.RemoveRadioRequest : TypeDef where
  name := "Hytera.RadioControlProtocol.RemoveRadioRequest"
  seq := []
  instances := []
  top := false

/-- okdmr/kaitai/hytera/radio_control_protocol.ksy:102-106 type `remove_radio_reply`. -/
def RadioControlProtocol.RemoveRadioReply : TypeDef where
  name := "Hytera.RadioControlProtocol.RemoveRadioReply"
  seq := [{ id := "result", ty := .primEnum .u1 RadioControlProtocol.ReplyResults }]
  instances := []
  top := false

/-- okdmr/kaitai/hytera/radio_control_protocol.ksy:108-114 type `broadcast_configuration`. -/
def RadioControlProtocol.BroadcastConfiguration : TypeDef where
  name := "Hytera.RadioControlProtocol.BroadcastConfiguration"
  seq := [{ id := "config_operation", ty := .prim .u1 },
    { id := "config_target", ty := .prim .u1 }]
  instances := []
  top := false

/-- okdmr/kaitai/hytera/radio_control_protocol.ksy:116-123 type `broadcast_status_configuration_request`. -/
def RadioControlProtocol.BroadcastStatusConfigurationRequest : TypeDef where
  name := "Hytera.RadioControlProtocol.BroadcastStatusConfigurationRequest"
  seq := [{ id := "num_broadcast_configuration", ty := .prim .u1 },
    { id := "broadcast_configuration", ty := .user RadioControlProtocol.BroadcastConfiguration, rep := .times (.field "num_broadcast_configuration") }]
  instances := []
  top := false

/-- okdmr/kaitai/hytera/radio_control_protocol.ksy:125-128 type `broadcast_status_configuration_reply`. -/
def RadioControlProtocol.BroadcastStatusConfigurationReply : TypeDef where
  name := "Hytera.RadioControlProtocol.BroadcastStatusConfigurationReply"
  seq := [{ id := "result", ty := .primEnum .u1 RadioControlProtocol.ReplyResults }]
  instances := []
  top := false

/-- okdmr/kaitai/hytera/radio_control_protocol.ksy:130-141 type `radio_identification_reply`. -/
def RadioControlProtocol.RadioIdentificationReply : TypeDef where
  name := "Hytera.RadioControlProtocol.RadioIdentificationReply"
  seq := [{ id := "header", ty := .bytes (.int 6), cond := some (.bin .ge (.parent "message_length") (.int 6)) },
    { id := "text", ty := .str (.int 192) .utf16be, cond := some (.bin .ge (.parent "message_length") (.int 198)) },
    { id := "footer", ty := .bytes (.int 8), cond := some (.bin .ge (.parent "message_length") (.int 206)) }]
  instances := []
  top := false

/-- okdmr/kaitai/hytera/radio_control_protocol.ksy:1-160 type `radio_control_protocol`. -/
def RadioControlProtocol : TypeDef where
  name := "Hytera.RadioControlProtocol"
  seq := [{ id := "service_type", ty := .primEnum .u2le RadioControlProtocol.ServiceTypes },
    { id := "message_length", ty := .prim .u2le },
    { id := "data", ty := .switch (.field "service_type") [((.enum RadioControlProtocol.ServiceTypes "call_request"), RadioControlProtocol.CallRequest), ((.enum RadioControlProtocol.ServiceTypes "call_reply"), RadioControlProtocol.CallReply), ((.enum RadioControlProtocol.ServiceTypes "remove_radio_request"), RadioControlProtocol.RemoveRadioRequest), ((.enum RadioControlProtocol.ServiceTypes "remove_radio_reply"), RadioControlProtocol.RemoveRadioReply), ((.enum RadioControlProtocol.ServiceTypes "broadcast_status_configuration_request"), RadioControlProtocol.BroadcastStatusConfigurationRequest), ((.enum RadioControlProtocol.ServiceTypes "broadcast_status_configuration_reply"), RadioControlProtocol.BroadcastStatusConfigurationReply), ((.enum RadioControlProtocol.ServiceTypes "radio_identification_reply"), RadioControlProtocol.RadioIdentificationReply)] (some RadioControlProtocol.GenericData) }]
  instances := []
  top := true

end Dmr.Ksy.Hytera

namespace Dmr.Ksy.Hytera

/-- okdmr/kaitai/hytera/hytera_dmr_application_protocol.ksy:13-19 enum `message_header_types`. -/
def HyteraDmrApplicationProtocol.MessageHeaderTypes : EnumDef where
  name := "MessageHeaderTypes"
  members := [(2, "radio_control_protocol"), (8, "location_protocol"), (9, "text_message_protocol"), (17, "radio_registration"), (18, "telemetry_protocol"), (19, "data_transmit_protocol"), (20, "data_delivery_states")]

/-- okdmr/kaitai/hytera/hytera_dmr_application_protocol.ksy:22-25 type `undefined_protocol`. -/
def HyteraDmrApplicationProtocol.UndefinedProtocol : TypeDef where
  name := "Hytera.HyteraDmrApplicationProtocol.UndefinedProtocol"
  seq := [{ id := "data", ty := .bytesEos }]
  instances := []
  top := false

/-- okdmr/kaitai/hytera/hytera_dmr_application_protocol.ksy:1-50 type `hytera_dmr_application_protocol`. -/
def HyteraDmrApplicationProtocol : TypeDef where
  name := "Hytera.HyteraDmrApplicationProtocol"
  seq := [{ id := "is_reliable_message", ty := .flag },
    { id := "message_header", ty := .bitsEnum 7 HyteraDmrApplicationProtocol.MessageHeaderTypes },
    { id := "data", ty := .switch (.field "message_header") [((.enum HyteraDmrApplicationProtocol.MessageHeaderTypes "radio_control_protocol"), RadioControlProtocol), ((.enum HyteraDmrApplicationProtocol.MessageHeaderTypes "location_protocol"), LocationProtocol), ((.enum HyteraDmrApplicationProtocol.MessageHeaderTypes "text_message_protocol"), TextMessageProtocol), ((.enum HyteraDmrApplicationProtocol.MessageHeaderTypes "radio_registration"), RadioRegistrationService), ((.enum HyteraDmrApplicationProtocol.MessageHeaderTypes "telemetry_protocol"), TelemetryProtocol), ((.enum HyteraDmrApplicationProtocol.MessageHeaderTypes "data_transmit_protocol"), DataTransmitProtocol), ((.enum HyteraDmrApplicationProtocol.MessageHeaderTypes "data_delivery_states"), DataDeliveryStates)] none },
    { id := "checksum", ty := .prim .u1 },
    { id := "message_footer", ty := .contents [0x03] "/seq/4" }]
  instances := []
  top := true

end Dmr.Ksy.Hytera

namespace Dmr.Ksy.Hytera

/-- okdmr/kaitai/hytera/hytera_radio_network_protocol.ksy:7-13 enum `opcodes`. -/
def HyteraRadioNetworkProtocol.Opcodes : EnumDef where
  name := "Opcodes"
  members := [(254, "connect"), (253, "accept"), (252, "reject"), (251, "close"), (250, "close_ack"), (0, "data"), (16, "data_ack")]

/-- okdmr/kaitai/hytera/hytera_radio_network_protocol.ksy:1-36 type `hytera_radio_network_protocol`. -/
def HyteraRadioNetworkProtocol : TypeDef where
  name := "Hytera.HyteraRadioNetworkProtocol"
  seq := [{ id := "header_identifier", ty := .contents [0x7e] "/seq/0" },
    { id := "version", ty := .prim .u1 },
    { id := "block", ty := .prim .u1 },
    { id := "opcode", ty := .primEnum .u1 HyteraRadioNetworkProtocol.Opcodes },
    { id := "source_id", ty := .prim .u1 },
    { id := "destination_id", ty := .prim .u1 },
    { id := "packet_number", ty := .prim .u2be },
    { id := "hrnp_packet_length", ty := .prim .u2be },
    { id := "checksum", ty := .prim .u2be },
    { id := "data", ty := .user HyteraDmrApplicationProtocol, cond := some (.bin .eq (.field "opcode") (.enum HyteraRadioNetworkProtocol.Opcodes "data")) }]
  instances := []
  top := true

end Dmr.Ksy.Hytera

namespace Dmr.Ksy.Hytera

/-- okdmr/kaitai/hytera/hytera_simple_transport_reliability_protocol.ksy:43-45 enum `option_commands`. -/
def HyteraSimpleTransportReliabilityProtocol.OptionCommands : EnumDef where
  name := "OptionCommands"
  members := [(1, "realtime"), (3, "device_id"), (4, "channel_id")]

/-- okdmr/kaitai/hytera/hytera_simple_transport_reliability_protocol.ksy:48-58 type `option`. -/
def HyteraSimpleTransportReliabilityProtocol.Option : TypeDef where
  name := "Hytera.HyteraSimpleTransportReliabilityProtocol.Option"
  seq := [{ id := "expect_more_options", ty := .flag },
    { id := "command", ty := .bitsEnum 7 HyteraSimpleTransportReliabilityProtocol.OptionCommands },
    { id := "len_option_payload", ty := .prim .u1 },
    { id := "option_payload", ty := .bytes (.field "len_option_payload") }]
  instances := []
  top := false

/-- okdmr/kaitai/hytera/hytera_simple_transport_reliability_protocol.ksy:1-58 type `hytera_simple_transport_reliability_protocol`. -/
def HyteraSimpleTransportReliabilityProtocol : TypeDef where
  name := "Hytera.HyteraSimpleTransportReliabilityProtocol"
  seq := [{ id := "header", ty := .contents [0x32, 0x42] "/seq/0" },
    { id := "version", ty := .prim .u1 },
    { id := "reserved", ty := .bits 2 },
    { id := "has_option", ty := .flag },
    { id := "is_reject", ty := .flag },
    { id := "is_close", ty := .flag },
    { id := "is_connect", ty := .flag },
    { id := "is_heartbeat", ty := .flag },
    { id := "is_ack", ty := .flag },
    { id := "sequence_number", ty := .prim .u2be },
    { id := "options", ty := .user HyteraSimpleTransportReliabilityProtocol.Option, cond := some (.bin .and (.bin .and (.not .ioEof) (.not (.field "is_heartbeat"))) (.field "has_option")), rep := .until (.not (.get .item "expect_more_options")) },
    { id := "data", ty := .user HyteraDmrApplicationProtocol, cond := some (.bin .and (.bin .and (.bin .and (.not .ioEof) (.not (.field "is_reject"))) (.not (.field "is_close"))) (.not (.field "is_connect"))), rep := .eos },
    { id := "extra_data", ty := .bytesEos, cond := some (.not .ioEof) }]
  instances := []
  top := true

end Dmr.Ksy.Hytera

namespace Dmr.Ksy.Hytera

/-- okdmr/kaitai/hytera/ip_site_connect_heartbeat.ksy:8-10 type `keepalive`. -/
def IpSiteConnectHeartbeat.Keepalive : TypeDef where
  name := "Hytera.IpSiteConnectHeartbeat.Keepalive"
  seq := [{ id := "nullbyte", ty := .contents [0x00] "/types/keepalive/seq/0" }]
  instances := []
  top := false

/-- okdmr/kaitai/hytera/ip_site_connect_heartbeat.ksy:12-24 type `ping_pong`. -/
def IpSiteConnectHeartbeat.PingPong : TypeDef where
  name := "Hytera.IpSiteConnectHeartbeat.PingPong"
  seq := [{ id := "header", ty := .contents [0x5a, 0x5a, 0x5a, 0x5a] "/types/ping_pong/seq/0" },
    { id := "heartbeat_identitier", ty := .contents [0x0a, 0x00, 0x00, 0x00, 0x14] "/types/ping_pong/seq/1" },
    { id := "nullbytes", ty := .contents [0x00, 0x00, 0x00] "/types/ping_pong/seq/2" },
    { id := "heartbeat_seq", ty := .prim .u1 },
    { id := "tail", ty := .contents [0x5a, 0x59, 0x5a, 0x00, 0x00, 0x00, 0x00] "/types/ping_pong/seq/4" }]
  instances := []
  top := false

/-- okdmr/kaitai/hytera/ip_site_connect_heartbeat.ksy:26-28 type `unknown`. -/
def IpSiteConnectHeartbeat.Unknown : TypeDef where
  name := "Hytera.IpSiteConnectHeartbeat.Unknown"
  seq := [{ id := "data", ty := .bytesEos }]
  instances := []
  top := false

/-- okdmr/kaitai/hytera/ip_site_connect_heartbeat.ksy:1-36 type `ip_site_connect_heartbeat`. -/
def IpSiteConnectHeartbeat : TypeDef where
  name := "Hytera.IpSiteConnectHeartbeat"
  seq := [{ id := "data", ty := .switch .ioSize [((.int 1), IpSiteConnectHeartbeat.Keepalive), ((.int 20), IpSiteConnectHeartbeat.PingPong)] (some IpSiteConnectHeartbeat.Unknown) }]
  instances := []
  top := true

end Dmr.Ksy.Hytera

namespace Dmr.Ksy.Hytera

/-- okdmr/kaitai/hytera/ip_site_connect_protocol.ksy:8-23 enum `slot_types`. -/
def IpSiteConnectProtocol.SlotTypes : EnumDef where
  name := "SlotTypes"
  members := [(0, "slot_type_privacy_indicator"), (4369, "slot_type_voice_lc_header"), (8738, "slot_type_terminator_with_lc"), (13107, "slot_type_csbk"), (17476, "slot_type_data_header"), (21845, "slot_type_rate_12_data"), (26214, "slot_type_rate_34_data"), (30583, "slot_type_data_a"), (34952, "slot_type_data_b"), (39321, "slot_type_data_c"), (43690, "slot_type_data_d"), (48059, "slot_type_data_e"), (52428, "slot_type_data_f"), (56797, "slot_type_wakeup_request"), (61166, "slot_type_sync")]

/-- okdmr/kaitai/hytera/ip_site_connect_protocol.ksy:25-30 enum `frame_types`. -/
def IpSiteConnectProtocol.FrameTypes : EnumDef where
  name := "FrameTypes"
  members := [(4369, "frame_type_voice_sync"), (13107, "frame_type_data_sync_or_csbk"), (61166, "frame_type_sync"), (26214, "frame_type_data_header"), (48059, "frame_type_voice"), (0, "frame_type_data")]

/-- okdmr/kaitai/hytera/ip_site_connect_protocol.ksy:32-35 enum `packet_types`. -/
def IpSiteConnectProtocol.PacketTypes : EnumDef where
  name := "PacketTypes"
  members := [(1, "pi_header"), (65, "a"), (66, "b"), (67, "terminator")]

/-- okdmr/kaitai/hytera/ip_site_connect_protocol.ksy:37-38 enum `timeslots`. -/
def IpSiteConnectProtocol.Timeslots : EnumDef where
  name := "Timeslots"
  members := [(4369, "timeslot_1"), (8738, "timeslot_2")]

/-- okdmr/kaitai/hytera/ip_site_connect_protocol.ksy:40-43 enum `call_types`. -/
def IpSiteConnectProtocol.CallTypes : EnumDef where
  name := "CallTypes"
  members := [(0, "private_call"), (1, "group_call"), (2, "wakeup_call_2"), (12, "wakeup_call_c")]

/-- okdmr/kaitai/hytera/ip_site_connect_protocol.ksy:1-100 type `ip_site_connect_protocol`. -/
def IpSiteConnectProtocol : TypeDef where
  name := "Hytera.IpSiteConnectProtocol"
  seq := [{ id := "source_port", ty := .bytes (.int 2) },
    { id := "fixed_header", ty := .contents [0x5a, 0x5a] "/seq/1" },
    { id := "sequence_number", ty := .prim .u1 },
    { id := "reserved_3", ty := .bytes (.int 3) },
    { id := "packet_type", ty := .primEnum .u1 IpSiteConnectProtocol.PacketTypes },
    { id := "reserved_7a", ty := .bytes (.int 7) },
    { id := "timeslot_raw", ty := .primEnum .u2be IpSiteConnectProtocol.Timeslots },
    { id := "slot_type", ty := .primEnum .u2be IpSiteConnectProtocol.SlotTypes },
    { id := "color_code_raw", ty := .prim .u2le },
    { id := "frame_type", ty := .primEnum .u2be IpSiteConnectProtocol.FrameTypes },
    { id := "reserved_2a", ty := .bytes (.int 2) },
    { id := "ipsc_payload", ty := .bytes (.int 34) },
    { id := "reserved_2b", ty := .bytes (.int 2) },
    { id := "call_type", ty := .primEnum .u1 IpSiteConnectProtocol.CallTypes },
    { id := "destination_radio_id_raw", ty := .prim .u4le },
    { id := "source_radio_id_raw", ty := .prim .u4le },
    { id := "reserved_1b", ty := .prim .u1 },
    { id := "extra_data", ty := .bytesEos, cond := some (.not .ioEof) }]
  instances := [("source_radio_id", .value (.bin .shr (.field "source_radio_id_raw") (.int 8))),
    ("destination_radio_id", .value (.bin .shr (.field "destination_radio_id_raw") (.int 8))),
    ("color_code", .value (.bin .band (.field "color_code_raw") (.int 15))),
    ("is_wakeup", .value (.bin .or (.bin .or (.bin .eq (.field "call_type") (.enum IpSiteConnectProtocol.CallTypes "wakeup_call_2")) (.bin .eq (.field "call_type") (.enum IpSiteConnectProtocol.CallTypes "wakeup_call_c"))) (.bin .eq (.field "slot_type") (.enum IpSiteConnectProtocol.SlotTypes "slot_type_wakeup_request"))))]
  top := true

end Dmr.Ksy.Hytera

namespace Dmr.Ksy.Hytera

/-- okdmr/kaitai/hytera/radio_id.ksy:1-11 type `radio_id`. -/
def RadioId : TypeDef where
  name := "Hytera.RadioId"
  seq := [{ id := "radio_id_raw", ty := .prim .u4le }]
  instances := [("radio_id", .value (.bin .shr (.field "radio_id_raw") (.int 8)))]
  top := true

end Dmr.Ksy.Hytera

namespace Dmr.Ksy.Hytera

/-- okdmr/kaitai/hytera/real_time_transport_protocol.ksy:11-13 enum `rtp_payload_types`. -/
def RealTimeTransportProtocol.RtpPayloadTypes : EnumDef where
  name := "RtpPayloadTypes"
  members := [(0, "mu_law"), (8, "a_law")]

/-- okdmr/kaitai/hytera/real_time_transport_protocol.ksy:15-17 enum `call_types`. -/
def RealTimeTransportProtocol.CallTypes : EnumDef where
  name := "CallTypes"
  members := [(0, "private_call"), (1, "group_call"), (2, "all_call")]

/-- okdmr/kaitai/hytera/real_time_transport_protocol.ksy:20-51 type `fixed_header`. -/
def RealTimeTransportProtocol.FixedHeader : TypeDef where
  name := "Hytera.RealTimeTransportProtocol.FixedHeader"
  seq := [{ id := "version", ty := .bits 2, valid := some ((.int 2), "/types/fixed_header/seq/0") },
    { id := "padding", ty := .flag },
    { id := "extension", ty := .flag },
    { id := "num_csrc", ty := .bits 4 },
    { id := "marker", ty := .flag },
    { id := "payload_type", ty := .bits 7 },
    { id := "sequence_number", ty := .prim .u2be },
    { id := "timestamp", ty := .prim .u4be },
    { id := "ssrc", ty := .prim .u4be },
    { id := "csrc", ty := .prim .u4be, rep := .times (.field "num_csrc") }]
  instances := []
  top := false

/-- okdmr/kaitai/hytera/real_time_transport_protocol.ksy:53-74 type `header_extension`. -/
def RealTimeTransportProtocol.HeaderExtension : TypeDef where
  name := "Hytera.RealTimeTransportProtocol.HeaderExtension"
  seq := [{ id := "header_identifier", ty := .prim .u2be },
    { id := "length", ty := .prim .u2be },
    { id := "slot", ty := .bits 7 },
    { id := "last_flag", ty := .flag },
    { id := "source_id", ty := .user RadioId },
    { id := "destination_id", ty := .user RadioId },
    { id := "call_type", ty := .primEnum .u1 RealTimeTransportProtocol.CallTypes },
    { id := "reserved", ty := .bytes (.int 4) }]
  instances := []
  top := false

/-- okdmr/kaitai/hytera/real_time_transport_protocol.ksy:1-92 type `real_time_transport_protocol`. -/
def RealTimeTransportProtocol : TypeDef where
  name := "Hytera.RealTimeTransportProtocol"
  seq := [{ id := "fixed_header", ty := .user RealTimeTransportProtocol.FixedHeader },
    { id := "header_extension", ty := .user RealTimeTransportProtocol.HeaderExtension, cond := some (.get (.field "fixed_header") "extension") },
    { id := "audio_data", ty := .bytes (.bin .sub (.bin .sub .ioSize .ioPos) (.field "len_padding")) },
    { id := "padding", ty := .bytes (.field "len_padding"), cond := some (.get (.field "fixed_header") "padding") }]
  instances := [("len_padding_if_exists", .at (.bin .sub .ioSize (.int 1)) (.prim .u1) (some (.get (.field "fixed_header") "padding"))),
    ("len_padding", .value (.cond (.get (.field "fixed_header") "padding") (.field "len_padding_if_exists") (.int 0)))]
  top := true

end Dmr.Ksy.Hytera

namespace Dmr.Ksy.Etsi

/-- okdmr/kaitai/etsi/dmr_csbk.ksy:8-13 enum `csbko_types`. -/
def DmrCsbk.CsbkoTypes : EnumDef where
  name := "CsbkoTypes"
  members := [(56, "bs_outbound_activation_csbk_pdu"), (4, "unit_to_unit_voice_service_request"), (5, "unit_to_unit_voice_service_answer_response"), (38, "negative_acknowledge_response"), (61, "preamble"), (7, "channel_timing")]

/-- okdmr/kaitai/etsi/dmr_csbk.ksy:15-16 enum `csbk_data_or_csbk`. -/
def DmrCsbk.CsbkDataOrCsbk : EnumDef where
  name := "CsbkDataOrCsbk"
  members := [(0, "csbk_content_follows_preambles"), (1, "data_content_follows_preambles")]

/-- okdmr/kaitai/etsi/dmr_csbk.ksy:18-19 enum `csbk_group_or_individual`. -/
def DmrCsbk.CsbkGroupOrIndividual : EnumDef where
  name := "CsbkGroupOrIndividual"
  members := [(0, "target_address_is_an_individual"), (1, "target_address_is_a_group")]

/-- okdmr/kaitai/etsi/dmr_csbk.ksy:21-22 enum `answer_response`. -/
def DmrCsbk.AnswerResponse : EnumDef where
  name := "AnswerResponse"
  members := [(32, "proceed"), (33, "deny")]

/-- okdmr/kaitai/etsi/dmr_csbk.ksy:25-38 type `service_options`. -/
def DmrCsbk.ServiceOptions : TypeDef where
  name := "Etsi.DmrCsbk.ServiceOptions"
  seq := [{ id := "is_emergency_service", ty := .flag },
    { id := "privacy", ty := .flag },
    { id := "reserved", ty := .bits 2 },
    { id := "is_broadcast_service", ty := .flag },
    { id := "is_open_voice_call_mode", ty := .flag },
    { id := "priority_level", ty := .bits 2 }]
  instances := []
  top := false

/-- okdmr/kaitai/etsi/dmr_csbk.ksy:40-55 type `preamble_data`. -/
def DmrCsbk.PreambleData : TypeDef where
  name := "Etsi.DmrCsbk.PreambleData"
  seq := [{ id := "preamble_data_or_csbk", ty := .bitsEnum 1 DmrCsbk.CsbkDataOrCsbk },
    { id := "group_or_individual", ty := .bitsEnum 1 DmrCsbk.CsbkGroupOrIndividual },
    { id := "preamble_reserved", ty := .bits 6 },
    { id := "preamble_csbk_blocks_to_follow", ty := .bits 8 },
    { id := "target_address", ty := .bits 24 },
    { id := "source_address", ty := .bits 24 }]
  instances := []
  top := false

/-- okdmr/kaitai/etsi/dmr_csbk.ksy:57-63 type `bs_outbound_activation_data`. -/
def DmrCsbk.BsOutboundActivationData : TypeDef where
  name := "Etsi.DmrCsbk.BsOutboundActivationData"
  seq := [{ id := "reserved", ty := .bits 16 },
    { id := "bs_address", ty := .bits 24 },
    { id := "source_address", ty := .bits 24 }]
  instances := []
  top := false

/-- okdmr/kaitai/etsi/dmr_csbk.ksy:65-73 type `unit_to_unit_voice_request_data`. -/
def DmrCsbk.UnitToUnitVoiceRequestData : TypeDef where
  name := "Etsi.DmrCsbk.UnitToUnitVoiceRequestData"
  seq := [{ id := "service_options", ty := .user DmrCsbk.ServiceOptions },
    { id := "reserved", ty := .bits 8 },
    { id := "target_address", ty := .bits 24 },
    { id := "source_address", ty := .bits 24 }]
  instances := []
  top := false

/-- okdmr/kaitai/etsi/dmr_csbk.ksy:75-84 type `unit_to_unit_voice_answer_data`. -/
def DmrCsbk.UnitToUnitVoiceAnswerData : TypeDef where
  name := "Etsi.DmrCsbk.UnitToUnitVoiceAnswerData"
  seq := [{ id := "service_options", ty := .user DmrCsbk.ServiceOptions },
    { id := "answer_response", ty := .bitsEnum 8 DmrCsbk.AnswerResponse },
    { id := "target_address", ty := .bits 24 },
    { id := "source_address", ty := .bits 24 }]
  instances := []
  top := false

/-- okdmr/kaitai/etsi/dmr_csbk.ksy:86-99 type `negative_ack_response_data`. -/
def DmrCsbk.NegativeAckResponseData : TypeDef where
  name := "Etsi.DmrCsbk.NegativeAckResponseData"
  seq := [{ id := "additional_information_field", ty := .flag },
    { id := "source_type", ty := .flag },
    { id := "service_type", ty := .bits 6 },
    { id := "reason_code", ty := .bits 8 },
    { id := "source_address", ty := .bits 24 },
    { id := "target_address", ty := .bits 24 }]
  instances := []
  top := false

/-- okdmr/kaitai/etsi/dmr_csbk.ksy:101-121 type `channel_timing_data`. -/
def DmrCsbk.ChannelTimingData : TypeDef where
  name := "Etsi.DmrCsbk.ChannelTimingData"
  seq := [{ id := "sync_age", ty := .bits 11 },
    { id := "generation", ty := .bits 5 },
    { id := "leader_identifier", ty := .bits 20 },
    { id := "new_leader", ty := .flag },
    { id := "leader_dynamic_identifier", ty := .bits 2 },
    { id := "channel_timing_op1", ty := .flag },
    { id := "source_identifier", ty := .bits 20 },
    { id := "reserved", ty := .flag },
    { id := "source_dynamic_identifier", ty := .bits 2 },
    { id := "channel_timing_op0", ty := .flag }]
  instances := []
  top := false

/-- okdmr/kaitai/etsi/dmr_csbk.ksy:1-145 type `dmr_csbk`. -/
def DmrCsbk : TypeDef where
  name := "Etsi.DmrCsbk"
  seq := [{ id := "last_block", ty := .flag },
    { id := "protect_flag", ty := .flag },
    { id := "csbk_opcode", ty := .bitsEnum 6 DmrCsbk.CsbkoTypes },
    { id := "feature_set_id", ty := .bits 8 },
    { id := "csbk_data", ty := .switch (.field "csbk_opcode") [((.enum DmrCsbk.CsbkoTypes "bs_outbound_activation_csbk_pdu"), DmrCsbk.BsOutboundActivationData), ((.enum DmrCsbk.CsbkoTypes "unit_to_unit_voice_service_request"), DmrCsbk.UnitToUnitVoiceRequestData), ((.enum DmrCsbk.CsbkoTypes "unit_to_unit_voice_service_answer_response"), DmrCsbk.UnitToUnitVoiceAnswerData), ((.enum DmrCsbk.CsbkoTypes "negative_acknowledge_response"), DmrCsbk.NegativeAckResponseData), ((.enum DmrCsbk.CsbkoTypes "preamble"), DmrCsbk.PreambleData), ((.enum DmrCsbk.CsbkoTypes "channel_timing"), DmrCsbk.ChannelTimingData)] none }]
  instances := []
  top := true

end Dmr.Ksy.Etsi

namespace Dmr.Ksy.Etsi

/-- okdmr/kaitai/etsi/dmr_data.ksy:8-16 type `rate_34_confirmed`. -/
def DmrData.Rate34Confirmed : TypeDef where
  name := "Etsi.DmrData.Rate34Confirmed"
  seq := [{ id := "data_block_serial_number", ty := .bits 7 },
    { id := "crc9", ty := .bits 9 },
    { id := "user_data", ty := .bytes (.int 16) }]
  instances := []
  top := false

/-- okdmr/kaitai/etsi/dmr_data.ksy:18-22 type `rate_34_unconfirmed`. -/
def DmrData.Rate34Unconfirmed : TypeDef where
  name := "Etsi.DmrData.Rate34Unconfirmed"
  seq := [{ id := "user_data", ty := .bytes (.int 18) }]
  instances := []
  top := false

/-- okdmr/kaitai/etsi/dmr_data.ksy:24-34 type `rate_34_last_block_confirmed`. -/
def DmrData.Rate34LastBlockConfirmed : TypeDef where
  name := "Etsi.DmrData.Rate34LastBlockConfirmed"
  seq := [{ id := "data_block_serial_number", ty := .bits 7 },
    { id := "crc9", ty := .bits 9 },
    { id := "user_data", ty := .bytes (.int 12) },
    { id := "message_crc32", ty := .bytes (.int 4) }]
  instances := []
  top := false

/-- okdmr/kaitai/etsi/dmr_data.ksy:36-42 type `rate_34_last_block_unconfirmed`. -/
def DmrData.Rate34LastBlockUnconfirmed : TypeDef where
  name := "Etsi.DmrData.Rate34LastBlockUnconfirmed"
  seq := [{ id := "user_data", ty := .bytes (.int 14) },
    { id := "message_crc32", ty := .bytes (.int 4) }]
  instances := []
  top := false

/-- okdmr/kaitai/etsi/dmr_data.ksy:44-52 type `rate_12_confirmed`. -/
def DmrData.Rate12Confirmed : TypeDef where
  name := "Etsi.DmrData.Rate12Confirmed"
  seq := [{ id := "data_block_serial_number", ty := .bits 7 },
    { id := "crc9", ty := .bits 9 },
    { id := "user_data", ty := .bytes (.int 10) }]
  instances := []
  top := false

/-- okdmr/kaitai/etsi/dmr_data.ksy:54-58 type `rate_12_unconfirmed`. -/
def DmrData.Rate12Unconfirmed : TypeDef where
  name := "Etsi.DmrData.Rate12Unconfirmed"
  seq := [{ id := "user_data", ty := .bytes (.int 12) }]
  instances := []
  top := false

/-- okdmr/kaitai/etsi/dmr_data.ksy:60-70 type `rate_12_last_block_confirmed`. -/
def DmrData.Rate12LastBlockConfirmed : TypeDef where
  name := "Etsi.DmrData.Rate12LastBlockConfirmed"
  seq := [{ id := "data_block_serial_number", ty := .bits 7 },
    { id := "crc9", ty := .bits 9 },
    { id := "user_data", ty := .bytes (.int 6) },
    { id := "message_crc32", ty := .bytes (.int 4) }]
  instances := []
  top := false

/-- okdmr/kaitai/etsi/dmr_data.ksy:72-78 type `rate_12_last_block_unconfirmed`. -/
def DmrData.Rate12LastBlockUnconfirmed : TypeDef where
  name := "Etsi.DmrData.Rate12LastBlockUnconfirmed"
  seq := [{ id := "user_data", ty := .bytes (.int 8) },
    { id := "message_crc32", ty := .bytes (.int 4) }]
  instances := []
  top := false

/-- okdmr/kaitai/etsi/dmr_data.ksy:80-86 type `udt_last_block`. -/
def DmrData.UdtLastBlock : TypeDef where
  name := "Etsi.DmrData.UdtLastBlock"
  seq := [{ id := "user_data", ty := .bytes (.int 10) },
    { id := "message_crc16", ty := .bytes (.int 2) }]
  instances := []
  top := false

/-- okdmr/kaitai/etsi/dmr_data.ksy:88-96 type `rate_1_confirmed`. -/
def DmrData.Rate1Confirmed : TypeDef where
  name := "Etsi.DmrData.Rate1Confirmed"
  seq := [{ id := "data_block_serial_number", ty := .bits 7 },
    { id := "crc9", ty := .bits 9 },
    { id := "user_data", ty := .bytes (.int 22) }]
  instances := []
  top := false

/-- okdmr/kaitai/etsi/dmr_data.ksy:98-102 type `rate_1_unconfirmed`. -/
def DmrData.Rate1Unconfirmed : TypeDef where
  name := "Etsi.DmrData.Rate1Unconfirmed"
  seq := [{ id := "user_data", ty := .bytes (.int 24) }]
  instances := []
  top := false

/-- okdmr/kaitai/etsi/dmr_data.ksy:104-114 type `rate_1_last_block_confirmed`. -/
def DmrData.Rate1LastBlockConfirmed : TypeDef where
  name := "Etsi.DmrData.Rate1LastBlockConfirmed"
  seq := [{ id := "data_block_serial_number", ty := .bits 7 },
    { id := "crc9", ty := .bits 9 },
    { id := "user_data", ty := .bytes (.int 18) },
    { id := "message_crc32", ty := .bytes (.int 4) }]
  instances := []
  top := false

/-- okdmr/kaitai/etsi/dmr_data.ksy:116-122 type `rate_1_last_block_unconfirmed`. -/
def DmrData.Rate1LastBlockUnconfirmed : TypeDef where
  name := "Etsi.DmrData.Rate1LastBlockUnconfirmed"
  seq := [{ id := "user_data", ty := .bytes (.int 20) },
    { id := "message_crc32", ty := .bytes (.int 4) }]
  instances := []
  top := false

/-- okdmr/kaitai/etsi/dmr_data.ksy:1-122 type `dmr_data`. -/
def DmrData : TypeDef where
  name := "Etsi.DmrData"
  seq := []
  instances := []
  top := true

end Dmr.Ksy.Etsi

namespace Dmr.Ksy.Etsi

/-- okdmr/kaitai/etsi/dmr_data_header.ksy:8-14 enum `data_packet_formats`. -/
def DmrDataHeader.DataPacketFormats : EnumDef where
  name := "DataPacketFormats"
  members := [(0, "unified_data_transport"), (1, "response_packet"), (2, "data_packet_unconfirmed"), (3, "data_packet_confirmed"), (13, "short_data_defined"), (14, "short_data_raw_or_status_or_precoded"), (15, "proprietary")]

/-- okdmr/kaitai/etsi/dmr_data_header.ksy:16-22 enum `sap_identifiers`. -/
def DmrDataHeader.SapIdentifiers : EnumDef where
  name := "SapIdentifiers"
  members := [(0, "unified_data_transport"), (2, "tcp_ip_header_compression"), (3, "udp_ip_header_compression"), (4, "ip_based_packet_data"), (5, "arp_address_resolution_protocol"), (9, "proprietary_packet_data"), (10, "short_data")]

/-- okdmr/kaitai/etsi/dmr_data_header.ksy:24-34 enum `udt_formats`. -/
def DmrDataHeader.UdtFormats : EnumDef where
  name := "UdtFormats"
  members := [(0, "binary"), (1, "ms_or_tg_address"), (2, "bcd_4bit"), (3, "iso_7bit_coded_characters"), (4, "iso_8bit_coded_characters"), (5, "nmea_location_coded"), (6, "ip_address"), (7, "unicode_16bit_characters"), (8, "manufacturer_specific"), (9, "manufacturer_specific_2"), (10, "mixed_address_and_16bit_utf16be_characters")]

/-- okdmr/kaitai/etsi/dmr_data_header.ksy:36-61 enum `csbk_mbc_udt_opcodes`. -/
def DmrDataHeader.CsbkMbcUdtOpcodes : EnumDef where
  name := "CsbkMbcUdtOpcodes"
  members := [(48, "pv_grant"), (49, "tv_grant"), (50, "btv_grant"), (51, "pd_grant"), (52, "td_grant"), (53, "pv_grant_dx"), (54, "pd_grant_dx"), (55, "pd_grant_mi"), (56, "td_grant_mi"), (57, "c_move"), (25, "c_aloha"), (40, "c_bcast"), (46, "p_clear"), (47, "p_protect"), (28, "c_or_p_ahoy"), (32, "c_ackd"), (33, "c_acku"), (34, "p_ackd"), (35, "p_acku"), (26, "c_udthd"), (27, "c_udthu"), (36, "c_dgnahd"), (37, "c_dgnahu"), (31, "c_rand"), (30, "c_ackvit"), (42, "p_maint")]

/-- okdmr/kaitai/etsi/dmr_data_header.ksy:63-87 enum `defined_data_formats`. -/
def DmrDataHeader.DefinedDataFormats : EnumDef where
  name := "DefinedDataFormats"
  members := [(0, "binary"), (1, "bcd"), (2, "coding_7bit"), (3, "coding_8bit_8859_1"), (4, "coding_8bit_8859_2"), (5, "coding_8bit_8859_3"), (6, "coding_8bit_8859_4"), (7, "coding_8bit_8859_5"), (8, "coding_8bit_8859_6"), (9, "coding_8bit_8859_7"), (10, "coding_8bit_8859_8"), (11, "coding_8bit_8859_9"), (12, "coding_8bit_8859_10"), (13, "coding_8bit_8859_11"), (14, "coding_8bit_8859_13"), (15, "coding_8bit_8859_14"), (16, "coding_8bit_8859_15"), (17, "coding_8bit_8859_16"), (18, "unicode_utf8"), (19, "unicode_utf16"), (20, "unicode_utf16be"), (21, "unicode_utf16le"), (22, "unicode_utf32"), (23, "unicode_utf32be"), (24, "unicode_utf32le")]

/-- okdmr/kaitai/etsi/dmr_data_header.ksy:89-91 enum `response_packet_classes`. -/
def DmrDataHeader.ResponsePacketClasses : EnumDef where
  name := "ResponsePacketClasses"
  members := [(0, "ack"), (1, "nack"), (2, "sack")]

/-- okdmr/kaitai/etsi/dmr_data_header.ksy:94-96 type `data_header_undefined`. -/
def DmrDataHeader.DataHeaderUndefined : TypeDef where
  name := "Etsi.DmrDataHeader.DataHeaderUndefined"
  seq := [{ id := "bytedata", ty := .bytesEos }]
  instances := []
  top := false

/-- okdmr/kaitai/etsi/dmr_data_header.ksy:98-113 type `data_header_proprietary`. -/
def DmrDataHeader.DataHeaderProprietary : TypeDef where
  name := "Etsi.DmrDataHeader.DataHeaderProprietary"
  seq := [{ id := "sap_identifier", ty := .bitsEnum 4 DmrDataHeader.SapIdentifiers },
    { id := "format", ty := .bitsEnum 4 DmrDataHeader.DataPacketFormats },
    { id := "mfid", ty := .bits 8 },
    { id := "proprietary_data", ty := .bytes (.int 8) },
    { id := "crc", ty := .bytes (.int 2) }]
  instances := []
  top := false

/-- okdmr/kaitai/etsi/dmr_data_header.ksy:115-156 type `data_header_udt`. -/
def DmrDataHeader.DataHeaderUdt : TypeDef where
  name := "Etsi.DmrDataHeader.DataHeaderUdt"
  seq := [{ id := "llid_destination_is_group", ty := .flag },
    { id := "response_requested", ty := .flag },
    { id := "reserved1", ty := .bits 2 },
    { id := "format", ty := .bitsEnum 4 DmrDataHeader.DataPacketFormats },
    { id := "sap_identifier", ty := .bitsEnum 4 DmrDataHeader.SapIdentifiers },
    { id := "udt_format", ty := .bitsEnum 4 DmrDataHeader.UdtFormats },
    { id := "llid_destination", ty := .bits 24 },
    { id := "llid_source", ty := .bits 24 },
    { id := "pad_nibble", ty := .bits 5 },
    { id := "reserved2", ty := .flag },
    { id := "appended_blocks", ty := .bits 2 },
    { id := "supplementary_flag", ty := .flag },
    { id := "protect_flag", ty := .flag },
    { id := "udt_opcode", ty := .bitsEnum 6 DmrDataHeader.CsbkMbcUdtOpcodes },
    { id := "crc", ty := .bytes (.int 2) }]
  instances := []
  top := false

/-- okdmr/kaitai/etsi/dmr_data_header.ksy:158-196 type `data_header_response`. -/
def DmrDataHeader.DataHeaderResponse : TypeDef where
  name := "Etsi.DmrDataHeader.DataHeaderResponse"
  seq := [{ id := "reserved1", ty := .flag },
    { id := "response_requested", ty := .flag },
    { id := "reserved2", ty := .bits 2 },
    { id := "format", ty := .bitsEnum 4 DmrDataHeader.DataPacketFormats },
    { id := "sap_identifier", ty := .bitsEnum 4 DmrDataHeader.SapIdentifiers },
    { id := "reserved3", ty := .bits 4 },
    { id := "llid_destination", ty := .bits 24 },
    { id := "llid_source", ty := .bits 24 },
    { id := "full_message_flag", ty := .flag },
    { id := "blocks_to_follow", ty := .bits 7 },
    { id := "response_class", ty := .bitsEnum 2 DmrDataHeader.ResponsePacketClasses },
    { id := "response_type", ty := .bits 3 },
    { id := "response_status", ty := .bits 3 },
    { id := "crc", ty := .bytes (.int 2) }]
  instances := []
  top := false

/-- okdmr/kaitai/etsi/dmr_data_header.ksy:198-232 type `data_header_unconfirmed`. -/
def DmrDataHeader.DataHeaderUnconfirmed : TypeDef where
  name := "Etsi.DmrDataHeader.DataHeaderUnconfirmed"
  seq := [{ id := "llid_destination_is_group", ty := .flag },
    { id := "response_requested", ty := .flag },
    { id := "reserved1", ty := .flag },
    { id := "pad_octet_count_msb", ty := .flag },
    { id := "format", ty := .bitsEnum 4 DmrDataHeader.DataPacketFormats },
    { id := "sap_identifier", ty := .bitsEnum 4 DmrDataHeader.SapIdentifiers },
    { id := "pad_octet_count", ty := .bits 4 },
    { id := "llid_destination", ty := .bits 24 },
    { id := "llid_source", ty := .bits 24 },
    { id := "full_message_flag", ty := .flag },
    { id := "blocks_to_follow", ty := .bits 7 },
    { id := "reserved2", ty := .bits 4 },
    { id := "fragment_sequence_number", ty := .bits 4 },
    { id := "crc", ty := .bytes (.int 2) }]
  instances := []
  top := false

/-- okdmr/kaitai/etsi/dmr_data_header.ksy:234-269 type `data_header_confirmed`. -/
def DmrDataHeader.DataHeaderConfirmed : TypeDef where
  name := "Etsi.DmrDataHeader.DataHeaderConfirmed"
  seq := [{ id := "llid_destination_is_group", ty := .flag },
    { id := "response_requested", ty := .flag },
    { id := "reserved1", ty := .flag },
    { id := "pad_octet_count_msb", ty := .flag },
    { id := "format", ty := .bitsEnum 4 DmrDataHeader.DataPacketFormats },
    { id := "sap_identifier", ty := .bitsEnum 4 DmrDataHeader.SapIdentifiers },
    { id := "pad_octet_count", ty := .bits 4 },
    { id := "llid_destination", ty := .bits 24 },
    { id := "llid_source", ty := .bits 24 },
    { id := "full_message_flag", ty := .flag },
    { id := "blocks_to_follow", ty := .bits 7 },
    { id := "resynchronize_flag", ty := .flag },
    { id := "send_sequence_number", ty := .bits 3 },
    { id := "fragment_sequence_number", ty := .bits 4 },
    { id := "crc", ty := .bytes (.int 2) }]
  instances := []
  top := false

/-- okdmr/kaitai/etsi/dmr_data_header.ksy:271-310 type `data_header_short_raw`. -/
def DmrDataHeader.DataHeaderShortRaw : TypeDef where
  name := "Etsi.DmrDataHeader.DataHeaderShortRaw"
  seq := [{ id := "llid_destination_is_group", ty := .flag },
    { id := "response_requested", ty := .flag },
    { id := "appended_blocks_msb", ty := .bits 2 },
    { id := "format", ty := .bitsEnum 4 DmrDataHeader.DataPacketFormats },
    { id := "sap_identifier", ty := .bitsEnum 4 DmrDataHeader.SapIdentifiers },
    { id := "appended_blocks_lsb", ty := .bits 4 },
    { id := "llid_destination", ty := .bits 24 },
    { id := "llid_source", ty := .bits 24 },
    { id := "source_port", ty := .bits 3 },
    { id := "destination_port", ty := .bits 3 },
    { id := "selective_automatic_repeat_request", ty := .flag },
    { id := "full_message_flag", ty := .flag },
    { id := "bit_padding", ty := .bits 8 },
    { id := "crc", ty := .bytes (.int 2) }]
  instances := [("appended_blocks", .value (.bin .add (.bin .shl (.field "appended_blocks_msb") (.int 4)) (.field "appended_blocks_lsb")))]
  top := false

/-- okdmr/kaitai/etsi/dmr_data_header.ksy:312-350 type `data_header_short_defined`. -/
def DmrDataHeader.DataHeaderShortDefined : TypeDef where
  name := "Etsi.DmrDataHeader.DataHeaderShortDefined"
  seq := [{ id := "llid_destination_is_group", ty := .flag },
    { id := "response_requested", ty := .flag },
    { id := "appended_blocks_msb", ty := .bits 2 },
    { id := "format", ty := .bitsEnum 4 DmrDataHeader.DataPacketFormats },
    { id := "sap_identifier", ty := .bitsEnum 4 DmrDataHeader.SapIdentifiers },
    { id := "appended_blocks_lsb", ty := .bits 4 },
    { id := "llid_destination", ty := .bits 24 },
    { id := "llid_source", ty := .bits 24 },
    { id := "defined_data", ty := .bitsEnum 6 DmrDataHeader.DefinedDataFormats },
    { id := "selective_automatic_repeat_request", ty := .flag },
    { id := "full_message_flag", ty := .flag },
    { id := "bit_padding", ty := .bits 8 },
    { id := "crc", ty := .bytes (.int 2) }]
  instances := [("appended_blocks", .value (.bin .add (.bin .shl (.field "appended_blocks_msb") (.int 4)) (.field "appended_blocks_lsb")))]
  top := false

/-- okdmr/kaitai/etsi/dmr_data_header.ksy:352-385 type `data_header_short_status_precoded`. -/
def DmrDataHeader.DataHeaderShortStatusPrecoded : TypeDef where
  name := "Etsi.DmrDataHeader.DataHeaderShortStatusPrecoded"
  seq := [{ id := "llid_destination_is_group", ty := .flag },
    { id := "response_requested", ty := .flag },
    { id := "appended_blocks_msb", ty := .bits 2 },
    { id := "format", ty := .bitsEnum 4 DmrDataHeader.DataPacketFormats },
    { id := "sap_identifier", ty := .bitsEnum 4 DmrDataHeader.SapIdentifiers },
    { id := "appended_blocks_lsb", ty := .bits 4 },
    { id := "llid_destination", ty := .bits 24 },
    { id := "llid_source", ty := .bits 24 },
    { id := "source_port", ty := .bits 3 },
    { id := "destination_port", ty := .bits 3 },
    { id := "status_precoded", ty := .bits 10 },
    { id := "crc", ty := .bytes (.int 2) }]
  instances := [("appended_blocks", .value (.bin .add (.bin .shl (.field "appended_blocks_msb") (.int 4)) (.field "appended_blocks_lsb")))]
  top := false

/-- okdmr/kaitai/etsi/dmr_data_header.ksy:1-408 type `dmr_data_header`. -/
def DmrDataHeader : TypeDef where
  name := "Etsi.DmrDataHeader"
  seq := [{ id := "skip4", ty := .bits 4 },
    { id := "data_packet_format", ty := .bitsEnum 4 DmrDataHeader.DataPacketFormats }]
  instances := [("data", .at (.int 0) (.sized (.int 12) (.switch (.field "data_packet_format") [((.enum DmrDataHeader.DataPacketFormats "unified_data_transport"), DmrDataHeader.DataHeaderUdt), ((.enum DmrDataHeader.DataPacketFormats "response_packet"), DmrDataHeader.DataHeaderResponse), ((.enum DmrDataHeader.DataPacketFormats "data_packet_unconfirmed"), DmrDataHeader.DataHeaderUnconfirmed), ((.enum DmrDataHeader.DataPacketFormats "data_packet_confirmed"), DmrDataHeader.DataHeaderConfirmed), ((.enum DmrDataHeader.DataPacketFormats "short_data_defined"), DmrDataHeader.DataHeaderShortDefined), ((.enum DmrDataHeader.DataPacketFormats "short_data_raw_or_status_or_precoded"), DmrDataHeader.DataHeaderShortStatusPrecoded), ((.enum DmrDataHeader.DataPacketFormats "proprietary"), DmrDataHeader.DataHeaderProprietary)] (some DmrDataHeader.DataHeaderUndefined))) none)]
  top := true

end Dmr.Ksy.Etsi

namespace Dmr.Ksy.Etsi

/-- okdmr/kaitai/etsi/dmr_ip_udp.ksy:8-9 enum `source_ip_address_ids`. -/
def DmrIpUdp.SourceIpAddressIds : EnumDef where
  name := "SourceIpAddressIds"
  members := [(0, "radio_network"), (1, "usb_ethernet_interface_network")]

/-- okdmr/kaitai/etsi/dmr_ip_udp.ksy:11-13 enum `destination_ip_address_ids`. -/
def DmrIpUdp.DestinationIpAddressIds : EnumDef where
  name := "DestinationIpAddressIds"
  members := [(0, "radio_network"), (1, "usb_ethernet_interface_network"), (2, "group_network")]

/-- okdmr/kaitai/etsi/dmr_ip_udp.ksy:15-17 enum `udp_port_ids`. -/
def DmrIpUdp.UdpPortIds : EnumDef where
  name := "UdpPortIds"
  members := [(0, "present_in_extended_header"), (1, "utf16be_text_message_port_5016"), (2, "location_interface_protocol")]

/-- okdmr/kaitai/etsi/dmr_ip_udp.ksy:20-52 type `udp_ipv4_compressed_header`. -/
def DmrIpUdp.UdpIpv4CompressedHeader : TypeDef where
  name := "Etsi.DmrIpUdp.UdpIpv4CompressedHeader"
  seq := [{ id := "ipv4_identification", ty := .bytes (.int 2) },
    { id := "source_ip_address_id", ty := .bitsEnum 4 DmrIpUdp.SourceIpAddressIds },
    { id := "destination_ip_address_id", ty := .bitsEnum 4 DmrIpUdp.DestinationIpAddressIds },
    { id := "header_compression_opcode_msb", ty := .flag },
    { id := "udp_source_port_id", ty := .bitsEnum 7 DmrIpUdp.UdpPortIds },
    { id := "header_compression_opcode_lsb", ty := .flag },
    { id := "udp_destination_port_id", ty := .bitsEnum 7 DmrIpUdp.UdpPortIds },
    { id := "udp_source_port", ty := .bytes (.int 2), cond := some (.bin .eq (.field "udp_source_port_id") (.enum DmrIpUdp.UdpPortIds "present_in_extended_header")) },
    { id := "udp_destination_port", ty := .bytes (.int 2), cond := some (.bin .eq (.field "udp_destination_port_id") (.enum DmrIpUdp.UdpPortIds "present_in_extended_header")) },
    { id := "user_data", ty := .bytesEos }]
  instances := []
  top := false

/-- okdmr/kaitai/etsi/dmr_ip_udp.ksy:1-52 type `dmr_ip_udp`. -/
def DmrIpUdp : TypeDef where
  name := "Etsi.DmrIpUdp"
  seq := []
  instances := []
  top := true

end Dmr.Ksy.Etsi

namespace Dmr.Ksy.Etsi

/-- okdmr/kaitai/etsi/full_link_control.ksy:8-14 enum `flcos`. -/
def FullLinkControl.Flcos : EnumDef where
  name := "Flcos"
  members := [(0, "group_voice"), (3, "unit_to_unit_voice"), (8, "gps_info"), (4, "talker_alias_header"), (5, "talker_alias_block1"), (6, "talker_alias_block2"), (7, "talker_alias_block3")]

/-- okdmr/kaitai/etsi/full_link_control.ksy:16-23 enum `position_errors`. -/
def FullLinkControl.PositionErrors : EnumDef where
  name := "PositionErrors"
  members := [(0, "less_than_2m"), (1, "less_than_20m"), (2, "less_than_200m"), (3, "less_than_2km"), (4, "less_than_20km"), (5, "less_than_or_equal_200km"), (6, "more_than_200km"), (7, "position_error_unknown_or_invalid")]

/-- okdmr/kaitai/etsi/full_link_control.ksy:25-28 enum `talker_data_formats`. -/
def FullLinkControl.TalkerDataFormats : EnumDef where
  name := "TalkerDataFormats"
  members := [(0, "coding_7bit"), (1, "coding_8bit"), (2, "unicode_utf8"), (3, "unicode_utf16")]

/-- okdmr/kaitai/etsi/full_link_control.ksy:30-37 enum `feature_set_ids`. -/
def FullLinkControl.FeatureSetIds : EnumDef where
  name := "FeatureSetIds"
  members := [(0, "standardized_ts_102_361_2"), (1, "reserved1"), (2, "reserved2"), (3, "reserved3"), (4, "mfid_start"), (127, "mfid_end"), (128, "mfid_reserved_start"), (255, "mfid_reserved_end")]

/-- okdmr/kaitai/etsi/full_link_control.ksy:40-46 type `group_voice_channel_user`. -/
def FullLinkControl.GroupVoiceChannelUser : TypeDef where
  name := "Etsi.FullLinkControl.GroupVoiceChannelUser"
  seq := [{ id := "service_options", ty := .bits 8 },
    { id := "group_address", ty := .bits 24 },
    { id := "source_address", ty := .bits 24 }]
  instances := []
  top := false

/-- okdmr/kaitai/etsi/full_link_control.ksy:48-54 type `unit_to_unit_voice_channel_user`. -/
def FullLinkControl.UnitToUnitVoiceChannelUser : TypeDef where
  name := "Etsi.FullLinkControl.UnitToUnitVoiceChannelUser"
  seq := [{ id := "service_options", ty := .bits 8 },
    { id := "target_address", ty := .bits 24 },
    { id := "source_address", ty := .bits 24 }]
  instances := []
  top := false

/-- okdmr/kaitai/etsi/full_link_control.ksy:56-65 type `gps_info_lc_pdu`. -/
def FullLinkControl.GpsInfoLcPdu : TypeDef where
  name := "Etsi.FullLinkControl.GpsInfoLcPdu"
  seq := [{ id := "reserved", ty := .bits 4 },
    { id := "position_error", ty := .bitsEnum 3 FullLinkControl.PositionErrors },
    { id := "longitude", ty := .bits 25 },
    { id := "latitude", ty := .bits 24 }]
  instances := []
  top := false

/-- okdmr/kaitai/etsi/full_link_control.ksy:67-75 type `talker_alias_header`. -/
def FullLinkControl.TalkerAliasHeader : TypeDef where
  name := "Etsi.FullLinkControl.TalkerAliasHeader"
  seq := [{ id := "talker_alias_data_format", ty := .bitsEnum 2 FullLinkControl.TalkerDataFormats },
    { id := "talker_alias_data_length", ty := .bits 5 },
    { id := "talker_alias_data", ty := .bits 49 }]
  instances := []
  top := false

/-- okdmr/kaitai/etsi/full_link_control.ksy:77-80 type `talker_alias_continuation`. -/
def FullLinkControl.TalkerAliasContinuation : TypeDef where
  name := "Etsi.FullLinkControl.TalkerAliasContinuation"
  seq := [{ id := "talker_alias_data", ty := .bits 56 }]
  instances := []
  top := false

/-- okdmr/kaitai/etsi/full_link_control.ksy:1-111 type `full_link_control`. -/
def FullLinkControl : TypeDef where
  name := "Etsi.FullLinkControl"
  seq := [{ id := "protect_flag", ty := .flag },
    { id := "reserved", ty := .flag },
    { id := "full_link_control_opcode", ty := .bitsEnum 6 FullLinkControl.Flcos },
    { id := "feature_set_id", ty := .bitsEnum 8 FullLinkControl.FeatureSetIds },
    { id := "specific_data", ty := .switch (.field "full_link_control_opcode") [((.enum FullLinkControl.Flcos "group_voice"), FullLinkControl.GroupVoiceChannelUser), ((.enum FullLinkControl.Flcos "unit_to_unit_voice"), FullLinkControl.UnitToUnitVoiceChannelUser), ((.enum FullLinkControl.Flcos "gps_info"), FullLinkControl.GpsInfoLcPdu), ((.enum FullLinkControl.Flcos "talker_alias_header"), FullLinkControl.TalkerAliasHeader), ((.enum FullLinkControl.Flcos "talker_alias_block1"), FullLinkControl.TalkerAliasContinuation), ((.enum FullLinkControl.Flcos "talker_alias_block2"), FullLinkControl.TalkerAliasContinuation), ((.enum FullLinkControl.Flcos "talker_alias_block3"), FullLinkControl.TalkerAliasContinuation)] none },
    { id := "crc_checksum", ty := .bytes (.int 3), cond := some (.bin .ge (.bin .sub .ioSize .ioPos) (.int 3)) },
    { id := "cs5_checksum", ty := .bits 5, cond := some (.bin .le .ioSize (.int 10)) }]
  instances := []
  top := true

end Dmr.Ksy.Etsi

namespace Dmr.Ksy.Homebrew

/-- okdmr/kaitai/homebrew/homebrew2015.ksy:8-9 enum `timeslots`. -/
def Homebrew2015.Timeslots : EnumDef where
  name := "Timeslots"
  members := [(0, "timeslot_1"), (1, "timeslot_2")]

/-- okdmr/kaitai/homebrew/homebrew2015.ksy:11-12 enum `call_types`. -/
def Homebrew2015.CallTypes : EnumDef where
  name := "CallTypes"
  members := [(0, "group_call"), (1, "private_call")]

/-- okdmr/kaitai/homebrew/homebrew2015.ksy:14-17 enum `frame_types`. -/
def Homebrew2015.FrameTypes : EnumDef where
  name := "FrameTypes"
  members := [(0, "voice_data"), (1, "voice_sync"), (2, "data_or_data_sync"), (3, "unused")]

/-- okdmr/kaitai/homebrew/homebrew2015.ksy:20-49 type `type_dmr_data`. -/
def Homebrew2015.TypeDmrData : TypeDef where
  name := "Homebrew.Homebrew2015.TypeDmrData"
  seq := [{ id := "sequence_no", ty := .prim .u1 },
    { id := "source_id", ty := .bits 24 },
    { id := "target_id", ty := .bits 24 },
    { id := "repeater_id", ty := .prim .u4be },
    { id := "slot_no", ty := .bitsEnum 1 Homebrew2015.Timeslots },
    { id := "call_type", ty := .bitsEnum 1 Homebrew2015.CallTypes },
    { id := "frame_type", ty := .bitsEnum 2 Homebrew2015.FrameTypes },
    { id := "data_type", ty := .bits 4 },
    { id := "stream_id", ty := .prim .u4be },
    { id := "dmr_data", ty := .bytes (.int 33) },
    { id := "bit_error_rate", ty := .prim .u1, cond := some (.not .ioEof) },
    { id := "rssi", ty := .prim .u1, cond := some (.not .ioEof) }]
  instances := []
  top := false

/-- okdmr/kaitai/homebrew/homebrew2015.ksy:51-53 type `type_repeater_login_request`. -/
def Homebrew2015.TypeRepeaterLoginRequest : TypeDef where
  name := "Homebrew.Homebrew2015.TypeRepeaterLoginRequest"
  seq := [{ id := "repeater_id", ty := .prim .u4be }]
  instances := []
  top := false

/-- okdmr/kaitai/homebrew/homebrew2015.ksy:55-59 type `type_master_ping`. -/
def Homebrew2015.TypeMasterPing : TypeDef where
  name := "Homebrew.Homebrew2015.TypeMasterPing"
  seq := [{ id := "magic", ty := .contents [0x49, 0x4e, 0x47] "/types/type_master_ping/seq/0" },
    { id := "repeater_id", ty := .prim .u4be }]
  instances := []
  top := false

/-- okdmr/kaitai/homebrew/homebrew2015.ksy:61-65 type `type_repeater_pong`. -/
def Homebrew2015.TypeRepeaterPong : TypeDef where
  name := "Homebrew.Homebrew2015.TypeRepeaterPong"
  seq := [{ id := "magic", ty := .contents [0x4f, 0x4e, 0x47] "/types/type_repeater_pong/seq/0" },
    { id := "repeater_id", ty := .prim .u4be }]
  instances := []
  top := false

/-- okdmr/kaitai/homebrew/homebrew2015.ksy:67-71 type `type_master_closing`. -/
def Homebrew2015.TypeMasterClosing : TypeDef where
  name := "Homebrew.Homebrew2015.TypeMasterClosing"
  seq := [{ id := "magic", ty := .contents [0x4c] "/types/type_master_closing/seq/0" },
    { id := "repeater_id", ty := .prim .u4be }]
  instances := []
  top := false

/-- okdmr/kaitai/homebrew/homebrew2015.ksy:73-77 type `type_master_not_accept`. -/
def Homebrew2015.TypeMasterNotAccept : TypeDef where
  name := "Homebrew.Homebrew2015.TypeMasterNotAccept"
  seq := [{ id := "magic", ty := .contents [0x41, 0x4b] "/types/type_master_not_accept/seq/0" },
    { id := "repeater_id", ty := .prim .u4be }]
  instances := []
  top := false

/-- okdmr/kaitai/homebrew/homebrew2015.ksy:79-86 type `type_master_repeater_ack`. -/
def Homebrew2015.TypeMasterRepeaterAck : TypeDef where
  name := "Homebrew.Homebrew2015.TypeMasterRepeaterAck"
  seq := [{ id := "magictype_master_repeater_ack", ty := .contents [0x43, 0x4b] "/types/type_master_repeater_ack/seq/0" },
    { id := "repeater_id", ty := .prim .u4be },
    { id := "random_number", ty := .prim .u4be, cond := some (.not .ioEof) }]
  instances := []
  top := false

/-- okdmr/kaitai/homebrew/homebrew2015.ksy:88-92 type `type_repeater_login_response`. -/
def Homebrew2015.TypeRepeaterLoginResponse : TypeDef where
  name := "Homebrew.Homebrew2015.TypeRepeaterLoginResponse"
  seq := [{ id := "repeater_id", ty := .prim .u4be },
    { id := "sha256", ty := .bytes (.int 32) }]
  instances := []
  top := false

/-- okdmr/kaitai/homebrew/homebrew2015.ksy:102-106 type `type_repeater_closing`. -/
def Homebrew2015.TypeRepeaterClosing : TypeDef where
  name := "Homebrew.Homebrew2015.TypeRepeaterClosing"
  seq := [{ id := "magic", ty := .contents [0x4c] "/types/type_repeater_closing/seq/0" },
    { id := "repeater_id", ty := .prim .u4be }]
  instances := []
  top := false

/-- okdmr/kaitai/homebrew/homebrew2015.ksy:108-166 type `type_repeater_configuration`. -/
def Homebrew2015.TypeRepeaterConfiguration : TypeDef where
  name := "Homebrew.Homebrew2015.TypeRepeaterConfiguration"
  seq := [{ id := "repeater_id", ty := .prim .u4be },
    { id := "call_sign", ty := .str (.int 8) .ascii },
    { id := "rx_freq", ty := .str (.int 9) .ascii },
    { id := "tx_freq", ty := .str (.int 9) .ascii },
    { id := "tx_power", ty := .str (.int 2) .ascii },
    { id := "color_code", ty := .str (.int 2) .ascii },
    { id := "latitude", ty := .str (.int 8) .ascii },
    { id := "longitude", ty := .str (.int 9) .ascii },
    { id := "antenna_height_above_ground", ty := .str (.int 3) .ascii },
    { id := "location", ty := .str (.int 20) .ascii },
    { id := "description", ty := .str (.int 20) .ascii },
    { id := "url", ty := .str (.int 124) .ascii },
    { id := "software_id", ty := .str (.int 40) .ascii },
    { id := "package_id", ty := .str (.int 40) .ascii },
    { id := "unparsed_data", ty := .strEos .ascii }]
  instances := []
  top := false

/-- okdmr/kaitai/homebrew/homebrew2015.ksy:94-100 type `type_repeater_configuration_or_closing`. -/
def Homebrew2015.TypeRepeaterConfigurationOrClosing : TypeDef where
  name := "Homebrew.Homebrew2015.TypeRepeaterConfigurationOrClosing"
  seq := [{ id := "data", ty := .switch (.root "fifth_letter") [((.str "L".toList), Homebrew2015.TypeRepeaterClosing)] (some Homebrew2015.TypeRepeaterConfiguration) }]
  instances := []
  top := false

/-- okdmr/kaitai/homebrew/homebrew2015.ksy:168-175 type `type_repeater_options`. -/
def Homebrew2015.TypeRepeaterOptions : TypeDef where
  name := "Homebrew.Homebrew2015.TypeRepeaterOptions"
  seq := [{ id := "repeater_id", ty := .prim .u4be },
    { id := "options", ty := .strEos .ascii }]
  instances := []
  top := false

/-- okdmr/kaitai/homebrew/homebrew2015.ksy:1-200 type `homebrew2015`. -/
def Homebrew2015 : TypeDef where
  name := "Homebrew.Homebrew2015"
  seq := [{ id := "command_prefix", ty := .str (.int 4) .utf8 },
    { id := "command_data", ty := .switch (.field "command_prefix") [((.str "RPTL".toList), Homebrew2015.TypeRepeaterLoginRequest), ((.str "MSTN".toList), Homebrew2015.TypeMasterNotAccept), ((.str "MSTA".toList), Homebrew2015.TypeMasterRepeaterAck), ((.str "RPTK".toList), Homebrew2015.TypeRepeaterLoginResponse), ((.str "MSTP".toList), Homebrew2015.TypeMasterPing), ((.str "RPTP".toList), Homebrew2015.TypeRepeaterPong), ((.str "RPTC".toList), Homebrew2015.TypeRepeaterConfigurationOrClosing), ((.str "MSTC".toList), Homebrew2015.TypeMasterClosing), ((.str "DMRD".toList), Homebrew2015.TypeDmrData)] none }]
  instances := [("fifth_letter", .at (.int 4) (.str (.int 1) .ascii) none)]
  top := true

end Dmr.Ksy.Homebrew

namespace Dmr.Ksy.Homebrew

/-- okdmr/kaitai/homebrew/mmdvm2020.ksy:8-9 enum `timeslots`. -/
def Mmdvm2020.Timeslots : EnumDef where
  name := "Timeslots"
  members := [(0, "timeslot_1"), (1, "timeslot_2")]

/-- okdmr/kaitai/homebrew/mmdvm2020.ksy:11-12 enum `call_types`. -/
def Mmdvm2020.CallTypes : EnumDef where
  name := "CallTypes"
  members := [(0, "group_call"), (1, "private_call")]

/-- okdmr/kaitai/homebrew/mmdvm2020.ksy:14-17 enum `frame_types`. -/
def Mmdvm2020.FrameTypes : EnumDef where
  name := "FrameTypes"
  members := [(0, "voice_data"), (1, "voice_sync"), (2, "data_or_data_sync"), (3, "unused")]

/-- okdmr/kaitai/homebrew/mmdvm2020.ksy:19-22 enum `talker_alias_types`. -/
def Mmdvm2020.TalkerAliasTypes : EnumDef where
  name := "TalkerAliasTypes"
  members := [(0, "talker_alias_header"), (1, "talker_alias_block_1"), (2, "talker_alias_block_2"), (3, "talker_alias_block_3")]

/-- okdmr/kaitai/homebrew/mmdvm2020.ksy:24-31 enum `position_errors`. -/
def Mmdvm2020.PositionErrors : EnumDef where
  name := "PositionErrors"
  members := [(0, "less_than_2m"), (1, "less_than_20m"), (2, "less_than_200m"), (3, "less_than_2km"), (4, "less_than_20km"), (5, "less_than_or_equal_200km"), (6, "more_than_200km"), (7, "position_error_unknown_or_invalid")]

/-- okdmr/kaitai/homebrew/mmdvm2020.ksy:34-36 type `type_unknown`. -/
def Mmdvm2020.TypeUnknown : TypeDef where
  name := "Homebrew.Mmdvm2020.TypeUnknown"
  seq := [{ id := "unknown_data", ty := .bytesEos }]
  instances := []
  top := false

/-- okdmr/kaitai/homebrew/mmdvm2020.ksy:38-47 type `type_talker_alias`. -/
def Mmdvm2020.TypeTalkerAlias : TypeDef where
  name := "Homebrew.Mmdvm2020.TypeTalkerAlias"
  seq := [{ id := "radio_id", ty := .bits 24 },
    { id := "talker_alias_type", ty := .primEnum .u1 Mmdvm2020.TalkerAliasTypes },
    { id := "talker_alias", ty := .str (.int 8) .ascii }]
  instances := []
  top := false

/-- okdmr/kaitai/homebrew/mmdvm2020.ksy:49-78 type `type_dmr_data`. -/
def Mmdvm2020.TypeDmrData : TypeDef where
  name := "Homebrew.Mmdvm2020.TypeDmrData"
  seq := [{ id := "sequence_no", ty := .prim .u1 },
    { id := "source_id", ty := .bits 24 },
    { id := "target_id", ty := .bits 24 },
    { id := "repeater_id", ty := .prim .u4be },
    { id := "slot_no", ty := .bitsEnum 1 Mmdvm2020.Timeslots },
    { id := "call_type", ty := .bitsEnum 1 Mmdvm2020.CallTypes },
    { id := "frame_type", ty := .bitsEnum 2 Mmdvm2020.FrameTypes },
    { id := "data_type", ty := .bits 4 },
    { id := "stream_id", ty := .prim .u4be },
    { id := "dmr_data", ty := .bytes (.int 33) },
    { id := "bit_error_rate", ty := .prim .u1, cond := some (.not .ioEof) },
    { id := "rssi", ty := .prim .u1, cond := some (.not .ioEof) }]
  instances := []
  top := false

/-- okdmr/kaitai/homebrew/mmdvm2020.ksy:80-82 type `type_repeater_login_request`. -/
def Mmdvm2020.TypeRepeaterLoginRequest : TypeDef where
  name := "Homebrew.Mmdvm2020.TypeRepeaterLoginRequest"
  seq := [{ id := "repeater_id", ty := .prim .u4be }]
  instances := []
  top := false

/-- okdmr/kaitai/homebrew/mmdvm2020.ksy:84-88 type `type_repeater_ping`. -/
def Mmdvm2020.TypeRepeaterPing : TypeDef where
  name := "Homebrew.Mmdvm2020.TypeRepeaterPing"
  seq := [{ id := "magic", ty := .contents [0x49, 0x4e, 0x47] "/types/type_repeater_ping/seq/0" },
    { id := "repeater_id", ty := .prim .u4be }]
  instances := []
  top := false

/-- okdmr/kaitai/homebrew/mmdvm2020.ksy:90-94 type `type_master_pong`. -/
def Mmdvm2020.TypeMasterPong : TypeDef where
  name := "Homebrew.Mmdvm2020.TypeMasterPong"
  seq := [{ id := "magic", ty := .contents [0x4f, 0x4e, 0x47] "/types/type_master_pong/seq/0" },
    { id := "repeater_id", ty := .prim .u4be }]
  instances := []
  top := false

/-- okdmr/kaitai/homebrew/mmdvm2020.ksy:96-100 type `type_master_closing`. -/
def Mmdvm2020.TypeMasterClosing : TypeDef where
  name := "Homebrew.Mmdvm2020.TypeMasterClosing"
  seq := [{ id := "magic", ty := .contents [0x4c] "/types/type_master_closing/seq/0" },
    { id := "repeater_id", ty := .prim .u4be }]
  instances := []
  top := false

/-- okdmr/kaitai/homebrew/mmdvm2020.ksy:102-106 type `type_master_not_accept`. -/
def Mmdvm2020.TypeMasterNotAccept : TypeDef where
  name := "Homebrew.Mmdvm2020.TypeMasterNotAccept"
  seq := [{ id := "magic", ty := .contents [0x41, 0x4b] "/types/type_master_not_accept/seq/0" },
    { id := "repeater_id", ty := .prim .u4be }]
  instances := []
  top := false

/-- okdmr/kaitai/homebrew/mmdvm2020.ksy:108-112 type `type_master_repeater_ack`. -/
def Mmdvm2020.TypeMasterRepeaterAck : TypeDef where
  name := "Homebrew.Mmdvm2020.TypeMasterRepeaterAck"
  seq := [{ id := "magic", ty := .contents [0x43, 0x4b] "/types/type_master_repeater_ack/seq/0" },
    { id := "repeater_id_or_challenge", ty := .prim .u4be }]
  instances := []
  top := false

/-- okdmr/kaitai/homebrew/mmdvm2020.ksy:114-118 type `type_repeater_login_response`. -/
def Mmdvm2020.TypeRepeaterLoginResponse : TypeDef where
  name := "Homebrew.Mmdvm2020.TypeRepeaterLoginResponse"
  seq := [{ id := "repeater_id", ty := .prim .u4be },
    { id := "sha256", ty := .bytes (.int 32) }]
  instances := []
  top := false

/-- okdmr/kaitai/homebrew/mmdvm2020.ksy:128-132 type `type_repeater_closing`. -/
def Mmdvm2020.TypeRepeaterClosing : TypeDef where
  name := "Homebrew.Mmdvm2020.TypeRepeaterClosing"
  seq := [{ id := "magic", ty := .contents [0x4c] "/types/type_repeater_closing/seq/0" },
    { id := "repeater_id", ty := .prim .u4be }]
  instances := []
  top := false

/-- okdmr/kaitai/homebrew/mmdvm2020.ksy:134-197 type `type_repeater_configuration`. -/
def Mmdvm2020.TypeRepeaterConfiguration : TypeDef where
  name := "Homebrew.Mmdvm2020.TypeRepeaterConfiguration"
  seq := [{ id := "repeater_id", ty := .prim .u4be },
    { id := "call_sign", ty := .str (.int 8) .ascii },
    { id := "rx_freq", ty := .str (.int 9) .ascii },
    { id := "tx_freq", ty := .str (.int 9) .ascii },
    { id := "tx_power", ty := .str (.int 2) .ascii },
    { id := "color_code", ty := .str (.int 2) .ascii },
    { id := "latitude", ty := .str (.int 8) .ascii },
    { id := "longitude", ty := .str (.int 9) .ascii },
    { id := "antenna_height_above_ground", ty := .str (.int 3) .ascii },
    { id := "location", ty := .str (.int 20) .ascii },
    { id := "description", ty := .str (.int 19) .ascii },
    { id := "slots", ty := .str (.int 1) .ascii },
    { id := "url", ty := .str (.int 124) .ascii },
    { id := "software_id", ty := .str (.int 40) .ascii },
    { id := "package_id", ty := .str (.int 40) .ascii },
    { id := "unparsed_data", ty := .strEos .ascii }]
  instances := []
  top := false

/-- okdmr/kaitai/homebrew/mmdvm2020.ksy:120-126 type `type_repeater_configuration_or_closing`. -/
def Mmdvm2020.TypeRepeaterConfigurationOrClosing : TypeDef where
  name := "Homebrew.Mmdvm2020.TypeRepeaterConfigurationOrClosing"
  seq := [{ id := "data", ty := .switch (.root "fifth_letter") [((.str "L".toList), Mmdvm2020.TypeRepeaterClosing)] (some Mmdvm2020.TypeRepeaterConfiguration) }]
  instances := []
  top := false

/-- okdmr/kaitai/homebrew/mmdvm2020.ksy:199-206 type `type_repeater_options`. -/
def Mmdvm2020.TypeRepeaterOptions : TypeDef where
  name := "Homebrew.Mmdvm2020.TypeRepeaterOptions"
  seq := [{ id := "repeater_id", ty := .prim .u4be },
    { id := "options", ty := .strEos .ascii }]
  instances := []
  top := false

/-- okdmr/kaitai/homebrew/mmdvm2020.ksy:208-220 type `type_radio_position`. -/
def Mmdvm2020.TypeRadioPosition : TypeDef where
  name := "Homebrew.Mmdvm2020.TypeRadioPosition"
  seq := [{ id := "radio_id", ty := .bits 24 },
    { id := "reserved", ty := .bits 4 },
    { id := "position_error", ty := .bitsEnum 3 Mmdvm2020.PositionErrors },
    { id := "longitude", ty := .bits 25 },
    { id := "latitude", ty := .bits 24 }]
  instances := []
  top := false

/-- okdmr/kaitai/homebrew/mmdvm2020.ksy:222-222 type `type_repeater_beacon`. -/
def Mmdvm2020.TypeRepeaterBeacon : TypeDef where
  name := "Homebrew.Mmdvm2020.TypeRepeaterBeacon"
  seq := []
  instances := []
  top := false

/-- okdmr/kaitai/homebrew/mmdvm2020.ksy:1-251 type `mmdvm2020`. -/
def Mmdvm2020 : TypeDef where
  name := "Homebrew.Mmdvm2020"
  seq := [{ id := "command_prefix", ty := .str (.int 4) .ascii },
    { id := "command_data", ty := .switch (.field "command_prefix") [((.str "DMRA".toList), Mmdvm2020.TypeTalkerAlias), ((.str "DMRG".toList), Mmdvm2020.TypeRadioPosition), ((.str "DMRD".toList), Mmdvm2020.TypeDmrData), ((.str "MSTC".toList), Mmdvm2020.TypeMasterClosing), ((.str "MSTP".toList), Mmdvm2020.TypeMasterPong), ((.str "MSTN".toList), Mmdvm2020.TypeMasterNotAccept), ((.str "RPTP".toList), Mmdvm2020.TypeRepeaterPing), ((.str "RPTO".toList), Mmdvm2020.TypeRepeaterOptions), ((.str "RPTL".toList), Mmdvm2020.TypeRepeaterLoginRequest), ((.str "RPTA".toList), Mmdvm2020.TypeMasterRepeaterAck), ((.str "RPTK".toList), Mmdvm2020.TypeRepeaterLoginResponse), ((.str "RPTC".toList), Mmdvm2020.TypeRepeaterConfigurationOrClosing), ((.str "RPTS".toList), Mmdvm2020.TypeRepeaterBeacon)] none }]
  instances := [("fifth_letter", .at (.int 4) (.str (.int 1) .ascii) none)]
  top := true

end Dmr.Ksy.Homebrew

namespace Dmr.Ksy.Motorola

/-- okdmr/kaitai/motorola/automatic_registration_service.ksy:6-7 enum `registration_events`. -/
def AutomaticRegistrationService.RegistrationEvents : EnumDef where
  name := "RegistrationEvents"
  members := [(1, "initial_event"), (2, "refresh_event")]

/-- okdmr/kaitai/motorola/automatic_registration_service.ksy:9-9 enum `failure_reasons`. -/
def AutomaticRegistrationService.FailureReasons : EnumDef where
  name := "FailureReasons"
  members := [(0, "device_not_authorized")]

/-- okdmr/kaitai/motorola/automatic_registration_service.ksy:12-27 type `message_header_bits`. -/
def AutomaticRegistrationService.MessageHeaderBits : TypeDef where
  name := "Motorola.AutomaticRegistrationService.MessageHeaderBits"
  seq := [{ id := "extension_bit", ty := .flag },
    { id := "acknowledgement_bit", ty := .flag },
    { id := "priority", ty := .flag },
    { id := "control_user_bit", ty := .flag },
    { id := "pdu_type", ty := .bits 4 }]
  instances := []
  top := false

/-- okdmr/kaitai/motorola/automatic_registration_service.ksy:29-38 type `device_registration_message_header`. -/
def AutomaticRegistrationService.DeviceRegistrationMessageHeader : TypeDef where
  name := "Motorola.AutomaticRegistrationService.DeviceRegistrationMessageHeader"
  seq := [{ id := "extension_bit", ty := .flag },
    { id := "event", ty := .bitsEnum 2 AutomaticRegistrationService.RegistrationEvents },
    { id := "encoding", ty := .bits 5 }]
  instances := []
  top := false

/-- okdmr/kaitai/motorola/automatic_registration_service.ksy:40-59 type `device_registration_message`. -/
def AutomaticRegistrationService.DeviceRegistrationMessage : TypeDef where
  name := "Motorola.AutomaticRegistrationService.DeviceRegistrationMessage"
  seq := [{ id := "device_registration_message_header", ty := .user AutomaticRegistrationService.DeviceRegistrationMessageHeader, cond := some (.get (.root "message_header") "extension_bit") },
    { id := "len_device_identifier", ty := .prim .u1 },
    { id := "device_identifier", ty := .bytes (.field "len_device_identifier"), cond := some (.bin .gt (.field "len_device_identifier") (.int 0)) },
    { id := "len_user_identifier", ty := .prim .u1 },
    { id := "user_identifier", ty := .bytes (.field "len_user_identifier"), cond := some (.bin .gt (.field "len_user_identifier") (.int 0)) },
    { id := "len_password", ty := .prim .u1 },
    { id := "password", ty := .bytes (.field "len_password"), cond := some (.bin .gt (.field "len_password") (.int 0)) }]
  instances := []
  top := false

/-- okdmr/kaitai/motorola/automatic_registration_service.ksy:61-68 type `device_registration_acknowledgement_header`. -/
def AutomaticRegistrationService.DeviceRegistrationAcknowledgementHeader : TypeDef where
  name := "Motorola.AutomaticRegistrationService.DeviceRegistrationAcknowledgementHeader"
  seq := [{ id := "extension_bit", ty := .flag },
    { id := "refresh_time", ty := .bits 7 }]
  instances := []
  top := false

/-- okdmr/kaitai/motorola/automatic_registration_service.ksy:70-77 type `device_registration_acknowledgement_failure_reason`. -/
def AutomaticRegistrationService.DeviceRegistrationAcknowledgementFailureReason : TypeDef where
  name := "Motorola.AutomaticRegistrationService.DeviceRegistrationAcknowledgementFailureReason"
  seq := [{ id := "extension_bit", ty := .flag },
    { id := "failure_reason", ty := .bitsEnum 7 AutomaticRegistrationService.FailureReasons }]
  instances := []
  top := false

/-- okdmr/kaitai/motorola/automatic_registration_service.ksy:79-88 type `acknowledgement_message`. -/
def AutomaticRegistrationService.AcknowledgementMessage : TypeDef where
  name := "Motorola.AutomaticRegistrationService.AcknowledgementMessage"
  seq := [{ id := "device_registration_acknowledgement_header", ty := .user AutomaticRegistrationService.DeviceRegistrationAcknowledgementHeader, cond := some (.bin .and (.get (.root "message_header") "extension_bit") (.get (.root "message_header") "acknowledgement_bit")) },
    { id := "device_registration_acknowledgement_failure_reason", ty := .user AutomaticRegistrationService.DeviceRegistrationAcknowledgementFailureReason, cond := some (.bin .and (.get (.root "message_header") "extension_bit") (.not (.get (.root "message_header") "acknowledgement_bit"))) }]
  instances := []
  top := false

/-- okdmr/kaitai/motorola/automatic_registration_service.ksy:90-90 type `device_deregistration_message`. -/
def AutomaticRegistrationService.DeviceDeregistrationMessage : TypeDef where
  name := "Motorola.AutomaticRegistrationService.DeviceDeregistrationMessage"
  seq := []
  instances := []
  top := false

/-- okdmr/kaitai/motorola/automatic_registration_service.ksy:92-92 type `ars_query_message`. -/
def AutomaticRegistrationService.ArsQueryMessage : TypeDef where
  name := "Motorola.AutomaticRegistrationService.ArsQueryMessage"
  seq := []
  instances := []
  top := false

/-- okdmr/kaitai/motorola/automatic_registration_service.ksy:1-112 type `automatic_registration_service`. -/
def AutomaticRegistrationService : TypeDef where
  name := "Motorola.AutomaticRegistrationService"
  seq := [{ id := "message_size", ty := .prim .u2le },
    { id := "message_header", ty := .user AutomaticRegistrationService.MessageHeaderBits },
    { id := "pdu_content", ty := .switch (.get (.field "message_header") "pdu_type") [((.int 0), AutomaticRegistrationService.DeviceRegistrationMessage), ((.int 1), AutomaticRegistrationService.DeviceDeregistrationMessage), ((.int 4), AutomaticRegistrationService.ArsQueryMessage), ((.int 15), AutomaticRegistrationService.AcknowledgementMessage)] none },
    { id := "unparsed_data", ty := .bytesEos }]
  instances := []
  top := true

end Dmr.Ksy.Motorola

namespace Dmr.Ksy.Motorola

/-- okdmr/kaitai/motorola/motorola_binary_xml.ksy:9-12 enum `docids`. -/
def MotorolaBinaryXml.Docids : EnumDef where
  name := "Docids"
  members := [(4, "lrrp_immediate_request"), (5, "lrrp_immediate_request_ncdt"), (6, "lrrp_immediate_response"), (7, "lrrp_immediate_response_ncdt")]

/-- okdmr/kaitai/motorola/motorola_binary_xml.ksy:14-16 enum `lrrp_elements`. -/
def MotorolaBinaryXml.LrrpElements : EnumDef where
  name := "LrrpElements"
  members := [(34, "request_id_22_opaque"), (35, "request_id_23_opaque_1byte"), (36, "request_id_24_cdt_reference")]

/-- okdmr/kaitai/motorola/motorola_binary_xml.ksy:19-26 type `uintvar`. -/
def MotorolaBinaryXml.Uintvar : TypeDef where
  name := "Motorola.MotorolaBinaryXml.Uintvar"
  seq := [{ id := "payload", ty := .prim .u1, rep := .until (.bin .or (.bin .eq (.bin .band .item (.int 128)) (.int 0)) .ioEof) }]
  instances := []
  top := false

/-- okdmr/kaitai/motorola/motorola_binary_xml.ksy:28-36 type `sintvar`. -/
def MotorolaBinaryXml.Sintvar : TypeDef where
  name := "Motorola.MotorolaBinaryXml.Sintvar"
  seq := [{ id := "payload", ty := .prim .u1, rep := .until (.bin .or (.bin .eq (.bin .band .item (.int 128)) (.int 0)) .ioEof) }]
  instances := []
  top := false

/-- okdmr/kaitai/motorola/motorola_binary_xml.ksy:38-45 type `ufloatvar`. -/
def MotorolaBinaryXml.Ufloatvar : TypeDef where
  name := "Motorola.MotorolaBinaryXml.Ufloatvar"
  seq := [{ id := "uint_payload", ty := .user MotorolaBinaryXml.Uintvar },
    { id := "fraction_payload", ty := .user MotorolaBinaryXml.Uintvar }]
  instances := []
  top := false

/-- okdmr/kaitai/motorola/motorola_binary_xml.ksy:47-53 type `sfloatvar`. -/
def MotorolaBinaryXml.Sfloatvar : TypeDef where
  name := "Motorola.MotorolaBinaryXml.Sfloatvar"
  seq := [{ id := "sint_payload", ty := .user MotorolaBinaryXml.Sintvar },
    { id := "fraction_payload", ty := .user MotorolaBinaryXml.Uintvar }]
  instances := []
  top := false

/-- okdmr/kaitai/motorola/motorola_binary_xml.ksy:55-59 type `opaque_element_value`. -/
def MotorolaBinaryXml.OpaqueElementValue : TypeDef where
  name := "Motorola.MotorolaBinaryXml.OpaqueElementValue"
  seq := [{ id := "len_value", ty := .prim .u1 },
    { id := "value", ty := .bytes (.field "len_value") }]
  instances := []
  top := false

/-- okdmr/kaitai/motorola/motorola_binary_xml.ksy:61-63 type `opaque_1byte_value`. -/
def MotorolaBinaryXml.Opaque1byteValue : TypeDef where
  name := "Motorola.MotorolaBinaryXml.Opaque1byteValue"
  seq := [{ id := "value", ty := .bytes (.int 1) }]
  instances := []
  top := false

/-- okdmr/kaitai/motorola/motorola_binary_xml.ksy:65-67 type `opaque_2byte_value`. -/
def MotorolaBinaryXml.Opaque2byteValue : TypeDef where
  name := "Motorola.MotorolaBinaryXml.Opaque2byteValue"
  seq := [{ id := "value", ty := .bytes (.int 2) }]
  instances := []
  top := false

/-- okdmr/kaitai/motorola/motorola_binary_xml.ksy:69-71 type `opaque_3byte_value`. -/
def MotorolaBinaryXml.Opaque3byteValue : TypeDef where
  name := "Motorola.MotorolaBinaryXml.Opaque3byteValue"
  seq := [{ id := "value", ty := .bytes (.int 3) }]
  instances := []
  top := false

/-- okdmr/kaitai/motorola/motorola_binary_xml.ksy:73-75 type `opaque_4byte_value`. -/
def MotorolaBinaryXml.Opaque4byteValue : TypeDef where
  name := "Motorola.MotorolaBinaryXml.Opaque4byteValue"
  seq := [{ id := "value", ty := .bytes (.int 4) }]
  instances := []
  top := false

/-- okdmr/kaitai/motorola/motorola_binary_xml.ksy:77-79 type `opaque_5byte_value`. -/
def MotorolaBinaryXml.Opaque5byteValue : TypeDef where
  name := "Motorola.MotorolaBinaryXml.Opaque5byteValue"
  seq := [{ id := "value", ty := .bytes (.int 5) }]
  instances := []
  top := false

/-- okdmr/kaitai/motorola/motorola_binary_xml.ksy:81-83 type `constant_data_table_reference`. -/
def MotorolaBinaryXml.ConstantDataTableReference : TypeDef where
  name := "Motorola.MotorolaBinaryXml.ConstantDataTableReference"
  seq := [{ id := "byte_offset_from_cdt_start", ty := .user MotorolaBinaryXml.Uintvar }]
  instances := []
  top := false

/-- okdmr/kaitai/motorola/motorola_binary_xml.ksy:85-95 type `lrrp_element`. -/
def MotorolaBinaryXml.LrrpElement : TypeDef where
  name := "Motorola.MotorolaBinaryXml.LrrpElement"
  seq := [{ id := "lrrp_element_type", ty := .primEnum .u1 MotorolaBinaryXml.LrrpElements },
    { id := "lrrp_element_data", ty := .switch (.field "lrrp_element_type") [((.enum MotorolaBinaryXml.LrrpElements "request_id_22_opaque"), MotorolaBinaryXml.OpaqueElementValue), ((.enum MotorolaBinaryXml.LrrpElements "request_id_23_opaque_1byte"), MotorolaBinaryXml.Opaque1byteValue), ((.enum MotorolaBinaryXml.LrrpElements "request_id_24_cdt_reference"), MotorolaBinaryXml.ConstantDataTableReference)] none }]
  instances := []
  top := false

/-- okdmr/kaitai/motorola/motorola_binary_xml.ksy:97-99 type `lrrp_immediate_request_ncdt`. -/
def MotorolaBinaryXml.LrrpImmediateRequestNcdt : TypeDef where
  name := "Motorola.MotorolaBinaryXml.LrrpImmediateRequestNcdt"
  seq := [{ id := "elements", ty := .user MotorolaBinaryXml.LrrpElement }]
  instances := []
  top := false

/-- okdmr/kaitai/motorola/motorola_binary_xml.ksy:101-116 type `mbxml_document`. -/
def MotorolaBinaryXml.MbxmlDocument : TypeDef where
  name := "Motorola.MotorolaBinaryXml.MbxmlDocument"
  seq := [{ id := "document_id", ty := .primEnum .u1 MotorolaBinaryXml.Docids },
    { id := "num_document_bytes", ty := .user MotorolaBinaryXml.Uintvar },
    { id := "document_data", ty := .switch (.field "document_id") [((.enum MotorolaBinaryXml.Docids "lrrp_immediate_request_ncdt"), MotorolaBinaryXml.LrrpImmediateRequestNcdt)] none }]
  instances := []
  top := false

/-- okdmr/kaitai/motorola/motorola_binary_xml.ksy:1-121 type `motorola_binary_xml`. -/
def MotorolaBinaryXml : TypeDef where
  name := "Motorola.MotorolaBinaryXml"
  seq := [{ id := "documents", ty := .user MotorolaBinaryXml.MbxmlDocument, rep := .until (.not .ioEof) }]
  instances := []
  top := true

end Dmr.Ksy.Motorola

namespace Dmr.Ksy.Motorola

/-- okdmr/kaitai/motorola/text_message_protocol.ksy:6-9 enum `tms_service_capability`. -/
def TextMessageProtocol.TmsServiceCapability : EnumDef where
  name := "TmsServiceCapability"
  members := [(0, "limited_capability"), (1, "internal_capability"), (2, "external_capability"), (3, "full_capability")]

/-- okdmr/kaitai/motorola/text_message_protocol.ksy:12-27 type `message_header_bits`. -/
def TextMessageProtocol.MessageHeaderBits : TypeDef where
  name := "Motorola.TextMessageProtocol.MessageHeaderBits"
  seq := [{ id := "extension_bit", ty := .flag },
    { id := "acknowledgement_required", ty := .flag },
    { id := "reserved", ty := .flag },
    { id := "control_user_bit", ty := .flag },
    { id := "pdu_type", ty := .bits 4 }]
  instances := []
  top := false

/-- okdmr/kaitai/motorola/text_message_protocol.ksy:29-37 type `tms_service_availability_header`. -/
def TextMessageProtocol.TmsServiceAvailabilityHeader : TypeDef where
  name := "Motorola.TextMessageProtocol.TmsServiceAvailabilityHeader"
  seq := [{ id := "extension_bit", ty := .flag },
    { id := "reserved", ty := .bits 4 },
    { id := "device", ty := .bitsEnum 3 TextMessageProtocol.TmsServiceCapability }]
  instances := []
  top := false

/-- okdmr/kaitai/motorola/text_message_protocol.ksy:39-43 type `tms_service_availability`. -/
def TextMessageProtocol.TmsServiceAvailability : TypeDef where
  name := "Motorola.TextMessageProtocol.TmsServiceAvailability"
  seq := [{ id := "header", ty := .user TextMessageProtocol.TmsServiceAvailabilityHeader, cond := some (.get (.root "message_header") "extension_bit") }]
  instances := []
  top := false

/-- okdmr/kaitai/motorola/text_message_protocol.ksy:45-47 type `tms_service_availability_acknowledgement`. -/
def TextMessageProtocol.TmsServiceAvailabilityAcknowledgement : TypeDef where
  name := "Motorola.TextMessageProtocol.TmsServiceAvailabilityAcknowledgement"
  seq := []
  instances := []
  top := false

/-- okdmr/kaitai/motorola/text_message_protocol.ksy:49-68 type `tms_acknowledgement_header_sequence_number`. -/
def TextMessageProtocol.TmsAcknowledgementHeaderSequenceNumber : TypeDef where
  name := "Motorola.TextMessageProtocol.TmsAcknowledgementHeaderSequenceNumber"
  seq := [{ id := "has_msb_header", ty := .flag },
    { id := "header_lsb_reserved", ty := .bits 2 },
    { id := "header_lsb_bits", ty := .bits 5 },
    { id := "header_msb_extension", ty := .flag, cond := some (.field "has_msb_header") },
    { id := "header_msb_bits", ty := .bits 2, cond := some (.field "has_msb_header") },
    { id := "header_msb_reserved", ty := .bits 5, cond := some (.field "has_msb_header") }]
  instances := [("sequence_number", .value (.bin .add (.bin .shl (.field "header_msb_bits") (.int 4)) (.field "header_lsb_bits")))]
  top := false

/-- okdmr/kaitai/motorola/text_message_protocol.ksy:70-74 type `tms_acknowledgement`. -/
def TextMessageProtocol.TmsAcknowledgement : TypeDef where
  name := "Motorola.TextMessageProtocol.TmsAcknowledgement"
  seq := [{ id := "tms_acknowledgement_header_sequence_number", ty := .user TextMessageProtocol.TmsAcknowledgementHeaderSequenceNumber, cond := some (.get (.root "message_header") "extension_bit") }]
  instances := []
  top := false

/-- okdmr/kaitai/motorola/text_message_protocol.ksy:76-94 type `text_message_header_sequence_and_encoding`. -/
def TextMessageProtocol.TextMessageHeaderSequenceAndEncoding : TypeDef where
  name := "Motorola.TextMessageProtocol.TextMessageHeaderSequenceAndEncoding"
  seq := [{ id := "has_encoding_header", ty := .flag },
    { id := "reserved_1", ty := .bits 2 },
    { id := "sequence_number_lsb_bits", ty := .bits 5 },
    { id := "header_encoding_extension", ty := .flag, cond := some (.field "has_encoding_header") },
    { id := "sequence_number_msb_bits", ty := .bits 2, cond := some (.field "has_encoding_header") },
    { id := "encoding", ty := .bits 5 }]
  instances := [("sequence_number", .value (.bin .add (.bin .shl (.field "sequence_number_msb_bits") (.int 4)) (.field "sequence_number_lsb_bits")))]
  top := false

/-- okdmr/kaitai/motorola/text_message_protocol.ksy:96-106 type `text_message`. -/
def TextMessageProtocol.TextMessage : TypeDef where
  name := "Motorola.TextMessageProtocol.TextMessage"
  seq := [{ id := "text_message_header_sequence_and_encoding", ty := .user TextMessageProtocol.TextMessageHeaderSequenceAndEncoding, cond := some (.get (.root "message_header") "extension_bit") },
    { id := "text_message", ty := .strEos .utf16le }]
  instances := []
  top := false

/-- okdmr/kaitai/motorola/text_message_protocol.ksy:1-137 type `text_message_protocol`. -/
def TextMessageProtocol : TypeDef where
  name := "Motorola.TextMessageProtocol"
  seq := [{ id := "message_size", ty := .prim .u2be },
    { id := "message_header", ty := .user TextMessageProtocol.MessageHeaderBits },
    { id := "len_address", ty := .prim .u1 },
    { id := "address", ty := .bytes (.field "len_address"), cond := some (.bin .gt (.field "len_address") (.int 0)) },
    { id := "pdu_content", ty := .switch (.field "custom_pdu_type") [((.int 48), TextMessageProtocol.TmsServiceAvailability), ((.int 31), TextMessageProtocol.TmsAcknowledgement), ((.int 0), TextMessageProtocol.TextMessage), ((.int 32), TextMessageProtocol.TextMessage)] none },
    { id := "unparsed_data", ty := .bytesEos }]
  instances := [("custom_pdu_type", .value (.bin .add (.bin .add (.bin .shl (.toI (.get (.root "message_header") "acknowledgement_required")) (.int 5)) (.bin .shl (.toI (.get (.root "message_header") "control_user_bit")) (.int 4))) (.get (.root "message_header") "pdu_type")))]
  top := true

end Dmr.Ksy.Motorola
