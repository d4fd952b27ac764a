import Verif.Py.Regular
import Verif.Model.Tools.PyView
/-
Generated by tools/mkregular.py: all objects of the library have the attributes that constructors assign.
-/

open Dmr.Py.Graph

namespace Dmr.Hytera

theorem RadioIp.toPy_regular (x : RadioIp) : regular x.toPy := by
  refine (regular_object _ _).2 ?_
  refine (regular_flatten_cons _ _).2 ⟨(regular_attr _ _).2 (regular_int _), ?_⟩
  refine (regular_flatten_cons _ _).2 ⟨(regular_attr _ _).2 (regular_int _), ?_⟩
  refine (regular_flatten_cons _ _).2 ⟨(regular_attr _ _).2 (regular_int _), ?_⟩
  refine (regular_flatten_cons _ _).2 ⟨(regular_attr _ _).2 (regular_int _), ?_⟩
  simp [regularInValues]

theorem RadioId.toPy_regular (x : RadioId) : regular x.toPy := by
  refine (regular_object _ _).2 ?_
  refine (regular_flatten_cons _ _).2 ⟨(regular_attr _ _).2 (regular_int _), ?_⟩
  simp [regularInValues]

theorem Gpsdata.toPy_regular (x : Gpsdata) : regular x.toPy := by
  refine (regular_object _ _).2 ?_
  refine (regular_flatten_cons _ _).2 ⟨(regular_attr _ _).2 (regular_bytes _), ?_⟩
  refine (regular_flatten_cons _ _).2 ⟨(regular_attr _ _).2 (regular_bytes _), ?_⟩
  refine (regular_flatten_cons _ _).2 ⟨(regular_attr _ _).2 (regular_bytes _), ?_⟩
  refine (regular_flatten_cons _ _).2 ⟨(regular_attr _ _).2 (regular_bytes _), ?_⟩
  refine (regular_flatten_cons _ _).2 ⟨(regular_attr _ _).2 (regular_bytes _), ?_⟩
  refine (regular_flatten_cons _ _).2 ⟨(regular_attr _ _).2 (regular_bytes _), ?_⟩
  refine (regular_flatten_cons _ _).2 ⟨(regular_attr _ _).2 (regular_bytes _), ?_⟩
  refine (regular_flatten_cons _ _).2 ⟨(regular_attr _ _).2 (regular_bytes _), ?_⟩
  refine (regular_flatten_cons _ _).2 ⟨(regular_attr _ _).2 (regular_bytes _), ?_⟩
  simp [regularInValues]

theorem Datetimestring.toPy_regular (x : Datetimestring) : regular x.toPy := by
  refine (regular_object _ _).2 ?_
  refine (regular_flatten_cons _ _).2 ⟨(regular_attr _ _).2 (regular_str _), ?_⟩
  simp [regularInValues]

theorem Intervalstring.toPy_regular (x : Intervalstring) : regular x.toPy := by
  refine (regular_object _ _).2 ?_
  refine (regular_flatten_cons _ _).2 ⟨(regular_attr _ _).2 (regular_str _), ?_⟩
  simp [regularInValues]

theorem DataDeliveryStates.toPy_regular (x : DataDeliveryStates) : regular x.toPy := by
  refine (regular_object _ _).2 ?_
  refine (regular_flatten_cons _ _).2 ⟨(regular_attr _ _).2 (regular_bytes _), ?_⟩
  refine (regular_flatten_cons _ _).2 ⟨(regular_attr _ _).2 (regular_enum _ _), ?_⟩
  refine (regular_flatten_cons _ _).2 ⟨(regular_attr _ _).2 (regular_int _), ?_⟩
  refine (regular_flatten_cons _ _).2 ⟨(regular_attr _ _).2 (RadioIp.toPy_regular x.radio_ip), ?_⟩
  refine (regular_flatten_cons _ _).2 ⟨(regular_attr _ _).2 (regular_int _), ?_⟩
  refine (regular_flatten_cons _ _).2 ⟨(regular_attr _ _).2 (regular_enum _ _), ?_⟩
  simp [regularInValues]

theorem DataTransmitProtocol.LastDataSlice.toPy_regular (x : DataTransmitProtocol.LastDataSlice) : regular x.toPy := by
  refine (regular_object _ _).2 ?_
  refine (regular_flatten_cons _ _).2 ⟨(regular_attr _ _).2 (RadioIp.toPy_regular x.destination_ip), ?_⟩
  refine (regular_flatten_cons _ _).2 ⟨(regular_attr _ _).2 (RadioIp.toPy_regular x.source_ip), ?_⟩
  simp [regularInValues]

theorem DataTransmitProtocol.DtpRequest.toPy_regular (x : DataTransmitProtocol.DtpRequest) : regular x.toPy := by
  refine (regular_object _ _).2 ?_
  refine (regular_flatten_cons _ _).2 ⟨(regular_attr _ _).2 (RadioIp.toPy_regular x.destination_ip), ?_⟩
  refine (regular_flatten_cons _ _).2 ⟨(regular_attr _ _).2 (RadioIp.toPy_regular x.source_ip), ?_⟩
  refine (regular_flatten_cons _ _).2 ⟨(regular_attr _ _).2 (regular_int _), ?_⟩
  refine (regular_flatten_cons _ _).2 ⟨(regular_attr _ _).2 (regular_str _), ?_⟩
  simp [regularInValues]

theorem DataTransmitProtocol.DataSliceAnswer.toPy_regular (x : DataTransmitProtocol.DataSliceAnswer) : regular x.toPy := by
  refine (regular_object _ _).2 ?_
  refine (regular_flatten_cons _ _).2 ⟨(regular_attr _ _).2 (RadioIp.toPy_regular x.destination_ip), ?_⟩
  refine (regular_flatten_cons _ _).2 ⟨(regular_attr _ _).2 (RadioIp.toPy_regular x.source_ip), ?_⟩
  refine (regular_flatten_cons _ _).2 ⟨(regular_attr _ _).2 (regular_int _), ?_⟩
  refine (regular_flatten_cons _ _).2 ⟨(regular_attr _ _).2 (regular_enum _ _), ?_⟩
  simp [regularInValues]

theorem DataTransmitProtocol.DataSliceTransmit.toPy_regular (x : DataTransmitProtocol.DataSliceTransmit) : regular x.toPy := by
  refine (regular_object _ _).2 ?_
  refine (regular_flatten_cons _ _).2 ⟨(regular_attr _ _).2 (RadioIp.toPy_regular x.destination_ip), ?_⟩
  refine (regular_flatten_cons _ _).2 ⟨(regular_attr _ _).2 (RadioIp.toPy_regular x.source_ip), ?_⟩
  refine (regular_flatten_cons _ _).2 ⟨(regular_attr _ _).2 (regular_int _), ?_⟩
  refine (regular_flatten_cons _ _).2 ⟨(regular_attr _ _).2 (regular_bytes _), ?_⟩
  simp [regularInValues]

theorem DataTransmitProtocol.LastDataSliceAnswer.toPy_regular (x : DataTransmitProtocol.LastDataSliceAnswer) : regular x.toPy := by
  refine (regular_object _ _).2 ?_
  refine (regular_flatten_cons _ _).2 ⟨(regular_attr _ _).2 (RadioIp.toPy_regular x.destination_ip), ?_⟩
  refine (regular_flatten_cons _ _).2 ⟨(regular_attr _ _).2 (RadioIp.toPy_regular x.source_ip), ?_⟩
  refine (regular_flatten_cons _ _).2 ⟨(regular_attr _ _).2 (regular_enum _ _), ?_⟩
  simp [regularInValues]

theorem DataTransmitProtocol.DtpAnswer.toPy_regular (x : DataTransmitProtocol.DtpAnswer) : regular x.toPy := by
  refine (regular_object _ _).2 ?_
  refine (regular_flatten_cons _ _).2 ⟨(regular_attr _ _).2 (RadioIp.toPy_regular x.destination_ip), ?_⟩
  refine (regular_flatten_cons _ _).2 ⟨(regular_attr _ _).2 (RadioIp.toPy_regular x.source_ip), ?_⟩
  refine (regular_flatten_cons _ _).2 ⟨(regular_attr _ _).2 (regular_enum _ _), ?_⟩
  simp [regularInValues]

theorem DataTransmitProtocol.DataUnion.toPy_regular (x : DataTransmitProtocol.DataUnion) : regular x.toPy := by
  cases x with
  | dtpRequest x => exact DataTransmitProtocol.DtpRequest.toPy_regular x
  | dataSliceTransmit x => exact DataTransmitProtocol.DataSliceTransmit.toPy_regular x
  | dataSliceAnswer x => exact DataTransmitProtocol.DataSliceAnswer.toPy_regular x
  | lastDataSliceAnswer x => exact DataTransmitProtocol.LastDataSliceAnswer.toPy_regular x
  | dtpAnswer x => exact DataTransmitProtocol.DtpAnswer.toPy_regular x
  | lastDataSlice x => exact DataTransmitProtocol.LastDataSlice.toPy_regular x

theorem DataTransmitProtocol.toPy_regular (x : DataTransmitProtocol) : regular x.toPy := by
  refine (regular_object _ _).2 ?_
  refine (regular_flatten_cons _ _).2 ⟨(regular_attr _ _).2 (regular_enum _ _), ?_⟩
  refine (regular_flatten_cons _ _).2 ⟨(regular_attr _ _).2 (regular_enum _ _), ?_⟩
  refine (regular_flatten_cons _ _).2 ⟨(regular_attr _ _).2 (regular_int _), ?_⟩
  refine (regular_flatten_cons _ _).2 ⟨regular_optAttr _ _ _ fun y => DataTransmitProtocol.DataUnion.toPy_regular y, ?_⟩
  simp [regularInValues]

theorem LocationProtocol.TriggeredReportStopAnswer.toPy_regular (x : LocationProtocol.TriggeredReportStopAnswer) : regular x.toPy := by
  refine (regular_object _ _).2 ?_
  refine (regular_flatten_cons _ _).2 ⟨(regular_attr _ _).2 (regular_int _), ?_⟩
  refine (regular_flatten_cons _ _).2 ⟨(regular_attr _ _).2 (RadioIp.toPy_regular x.radio_ip), ?_⟩
  refine (regular_flatten_cons _ _).2 ⟨(regular_attr _ _).2 (regular_enum _ _), ?_⟩
  simp [regularInValues]

theorem LocationProtocol.ConditionReportRequest.toPy_regular (x : LocationProtocol.ConditionReportRequest) : regular x.toPy := by
  refine (regular_object _ _).2 ?_
  refine (regular_flatten_cons _ _).2 ⟨(regular_attr _ _).2 (regular_int _), ?_⟩
  refine (regular_flatten_cons _ _).2 ⟨(regular_attr _ _).2 (RadioIp.toPy_regular x.radio_ip), ?_⟩
  refine (regular_flatten_cons _ _).2 ⟨(regular_attr _ _).2 (regular_int _), ?_⟩
  refine (regular_flatten_cons _ _).2 ⟨(regular_attr _ _).2 (regular_int _), ?_⟩
  refine (regular_flatten_cons _ _).2 ⟨(regular_attr _ _).2 (Datetimestring.toPy_regular x.start_time), ?_⟩
  refine (regular_flatten_cons _ _).2 ⟨(regular_attr _ _).2 (Datetimestring.toPy_regular x.stop_time), ?_⟩
  refine (regular_flatten_cons _ _).2 ⟨(regular_attr _ _).2 (Intervalstring.toPy_regular x.interval), ?_⟩
  refine (regular_flatten_cons _ _).2 ⟨(regular_attr _ _).2 (Intervalstring.toPy_regular x.max_interval), ?_⟩
  simp [regularInValues]

theorem LocationProtocol.QuickGpsPayload.toPy_regular (x : LocationProtocol.QuickGpsPayload) : regular x.toPy := by
  refine (regular_object _ _).2 ?_
  refine (regular_flatten_cons _ _).2 ⟨(regular_attr _ _).2 (Datetimestring.toPy_regular x.start_time), ?_⟩
  refine (regular_flatten_cons _ _).2 ⟨(regular_attr _ _).2 (Datetimestring.toPy_regular x.stop_time), ?_⟩
  refine (regular_flatten_cons _ _).2 ⟨(regular_attr _ _).2 (Intervalstring.toPy_regular x.interval), ?_⟩
  refine (regular_flatten_cons _ _).2 ⟨(regular_attr _ _).2 (regular_int _), ?_⟩
  refine (regular_flatten_cons _ _).2 ⟨(regular_attr _ _).2 (regular_int _), ?_⟩
  refine (regular_flatten_cons _ _).2 ⟨(regular_attr _ _).2 (regular_int _), ?_⟩
  simp [regularInValues]

theorem LocationProtocol.ConditionQuickGpsRequest.toPy_regular (x : LocationProtocol.ConditionQuickGpsRequest) : regular x.toPy := by
  refine (regular_object _ _).2 ?_
  refine (regular_flatten_cons _ _).2 ⟨(regular_attr _ _).2 (regular_int _), ?_⟩
  refine (regular_flatten_cons _ _).2 ⟨(regular_attr _ _).2 (RadioIp.toPy_regular x.radio_ip), ?_⟩
  refine (regular_flatten_cons _ _).2 ⟨(regular_attr _ _).2 (regular_enum _ _), ?_⟩
  refine (regular_flatten_cons _ _).2 ⟨regular_optAttr _ _ _ fun y => LocationProtocol.QuickGpsPayload.toPy_regular y, ?_⟩
  simp [regularInValues]

theorem LocationProtocol.ConditionReport.toPy_regular (x : LocationProtocol.ConditionReport) : regular x.toPy := by
  refine (regular_object _ _).2 ?_
  refine (regular_flatten_cons _ _).2 ⟨(regular_attr _ _).2 (regular_int _), ?_⟩
  refine (regular_flatten_cons _ _).2 ⟨(regular_attr _ _).2 (RadioIp.toPy_regular x.radio_ip), ?_⟩
  refine (regular_flatten_cons _ _).2 ⟨(regular_attr _ _).2 (Gpsdata.toPy_regular x.gpsdata), ?_⟩
  simp [regularInValues]

theorem LocationProtocol.EmergencyReport.toPy_regular (x : LocationProtocol.EmergencyReport) : regular x.toPy := by
  refine (regular_object _ _).2 ?_
  refine (regular_flatten_cons _ _).2 ⟨(regular_attr _ _).2 (RadioIp.toPy_regular x.radio_ip), ?_⟩
  refine (regular_flatten_cons _ _).2 ⟨(regular_attr _ _).2 (regular_int _), ?_⟩
  refine (regular_flatten_cons _ _).2 ⟨(regular_attr _ _).2 (Gpsdata.toPy_regular x.gpsdata), ?_⟩
  simp [regularInValues]

theorem LocationProtocol.TriggeredReportAnswer.toPy_regular (x : LocationProtocol.TriggeredReportAnswer) : regular x.toPy := by
  refine (regular_object _ _).2 ?_
  refine (regular_flatten_cons _ _).2 ⟨(regular_attr _ _).2 (regular_int _), ?_⟩
  refine (regular_flatten_cons _ _).2 ⟨(regular_attr _ _).2 (RadioIp.toPy_regular x.radio_ip), ?_⟩
  refine (regular_flatten_cons _ _).2 ⟨(regular_attr _ _).2 (regular_enum _ _), ?_⟩
  simp [regularInValues]

theorem LocationProtocol.StandardAnswerWithRssi.toPy_regular (x : LocationProtocol.StandardAnswerWithRssi) : regular x.toPy := by
  refine (regular_object _ _).2 ?_
  refine (regular_flatten_cons _ _).2 ⟨(regular_attr _ _).2 (regular_int _), ?_⟩
  refine (regular_flatten_cons _ _).2 ⟨(regular_attr _ _).2 (RadioIp.toPy_regular x.radio_ip), ?_⟩
  refine (regular_flatten_cons _ _).2 ⟨(regular_attr _ _).2 (regular_enum _ _), ?_⟩
  refine (regular_flatten_cons _ _).2 ⟨(regular_attr _ _).2 (Gpsdata.toPy_regular x.gpsdata), ?_⟩
  refine (regular_flatten_cons _ _).2 ⟨(regular_attr _ _).2 (regular_int _), ?_⟩
  simp [regularInValues]

theorem LocationProtocol.StandardRequest.toPy_regular (x : LocationProtocol.StandardRequest) : regular x.toPy := by
  refine (regular_object _ _).2 ?_
  refine (regular_flatten_cons _ _).2 ⟨(regular_attr _ _).2 (regular_int _), ?_⟩
  refine (regular_flatten_cons _ _).2 ⟨(regular_attr _ _).2 (RadioIp.toPy_regular x.radio_ip), ?_⟩
  simp [regularInValues]

theorem LocationProtocol.TriggeredReportRequest.toPy_regular (x : LocationProtocol.TriggeredReportRequest) : regular x.toPy := by
  refine (regular_object _ _).2 ?_
  refine (regular_flatten_cons _ _).2 ⟨(regular_attr _ _).2 (regular_int _), ?_⟩
  refine (regular_flatten_cons _ _).2 ⟨(regular_attr _ _).2 (RadioIp.toPy_regular x.radio_ip), ?_⟩
  refine (regular_flatten_cons _ _).2 ⟨(regular_attr _ _).2 (Datetimestring.toPy_regular x.start_time), ?_⟩
  refine (regular_flatten_cons _ _).2 ⟨(regular_attr _ _).2 (Datetimestring.toPy_regular x.stop_time), ?_⟩
  refine (regular_flatten_cons _ _).2 ⟨(regular_attr _ _).2 (Intervalstring.toPy_regular x.interval), ?_⟩
  simp [regularInValues]

theorem LocationProtocol.StandardAnswer.toPy_regular (x : LocationProtocol.StandardAnswer) : regular x.toPy := by
  refine (regular_object _ _).2 ?_
  refine (regular_flatten_cons _ _).2 ⟨(regular_attr _ _).2 (regular_int _), ?_⟩
  refine (regular_flatten_cons _ _).2 ⟨(regular_attr _ _).2 (RadioIp.toPy_regular x.radio_ip), ?_⟩
  refine (regular_flatten_cons _ _).2 ⟨(regular_attr _ _).2 (regular_enum _ _), ?_⟩
  refine (regular_flatten_cons _ _).2 ⟨(regular_attr _ _).2 (Gpsdata.toPy_regular x.gpsdata), ?_⟩
  simp [regularInValues]

theorem LocationProtocol.ConditionReportAnswer.toPy_regular (x : LocationProtocol.ConditionReportAnswer) : regular x.toPy := by
  refine (regular_object _ _).2 ?_
  refine (regular_flatten_cons _ _).2 ⟨(regular_attr _ _).2 (regular_int _), ?_⟩
  refine (regular_flatten_cons _ _).2 ⟨(regular_attr _ _).2 (RadioIp.toPy_regular x.radio_ip), ?_⟩
  refine (regular_flatten_cons _ _).2 ⟨(regular_attr _ _).2 (regular_enum _ _), ?_⟩
  refine (regular_flatten_cons _ _).2 ⟨(regular_attr _ _).2 (regular_enum _ _), ?_⟩
  simp [regularInValues]

theorem LocationProtocol.EmergencyReportStopRequest.toPy_regular (x : LocationProtocol.EmergencyReportStopRequest) : regular x.toPy := by
  refine (regular_object _ _).2 ?_
  refine (regular_flatten_cons _ _).2 ⟨(regular_attr _ _).2 (regular_int _), ?_⟩
  refine (regular_flatten_cons _ _).2 ⟨(regular_attr _ _).2 (RadioIp.toPy_regular x.radio_ip), ?_⟩
  simp [regularInValues]

theorem LocationProtocol.ConditionQuickGpsAnswer.toPy_regular (x : LocationProtocol.ConditionQuickGpsAnswer) : regular x.toPy := by
  refine (regular_object _ _).2 ?_
  refine (regular_flatten_cons _ _).2 ⟨(regular_attr _ _).2 (regular_int _), ?_⟩
  refine (regular_flatten_cons _ _).2 ⟨(regular_attr _ _).2 (RadioIp.toPy_regular x.radio_ip), ?_⟩
  refine (regular_flatten_cons _ _).2 ⟨(regular_attr _ _).2 (regular_enum _ _), ?_⟩
  refine (regular_flatten_cons _ _).2 ⟨(regular_attr _ _).2 (regular_enum _ _), ?_⟩
  simp [regularInValues]

theorem LocationProtocol.TriggeredReport.toPy_regular (x : LocationProtocol.TriggeredReport) : regular x.toPy := by
  refine (regular_object _ _).2 ?_
  refine (regular_flatten_cons _ _).2 ⟨(regular_attr _ _).2 (regular_int _), ?_⟩
  refine (regular_flatten_cons _ _).2 ⟨(regular_attr _ _).2 (RadioIp.toPy_regular x.radio_ip), ?_⟩
  refine (regular_flatten_cons _ _).2 ⟨(regular_attr _ _).2 (Intervalstring.toPy_regular x.time_remaining), ?_⟩
  refine (regular_flatten_cons _ _).2 ⟨(regular_attr _ _).2 (Gpsdata.toPy_regular x.gpsdata), ?_⟩
  simp [regularInValues]

theorem LocationProtocol.ConditionReportWithRssi.toPy_regular (x : LocationProtocol.ConditionReportWithRssi) : regular x.toPy := by
  refine (regular_object _ _).2 ?_
  refine (regular_flatten_cons _ _).2 ⟨(regular_attr _ _).2 (regular_int _), ?_⟩
  refine (regular_flatten_cons _ _).2 ⟨(regular_attr _ _).2 (RadioIp.toPy_regular x.radio_ip), ?_⟩
  refine (regular_flatten_cons _ _).2 ⟨(regular_attr _ _).2 (regular_enum _ _), ?_⟩
  refine (regular_flatten_cons _ _).2 ⟨(regular_attr _ _).2 (Gpsdata.toPy_regular x.gpsdata), ?_⟩
  refine (regular_flatten_cons _ _).2 ⟨(regular_attr _ _).2 (regular_int _), ?_⟩
  simp [regularInValues]

theorem LocationProtocol.EmergencyReportStopAnswer.toPy_regular (x : LocationProtocol.EmergencyReportStopAnswer) : regular x.toPy := by
  refine (regular_object _ _).2 ?_
  refine (regular_flatten_cons _ _).2 ⟨(regular_attr _ _).2 (regular_int _), ?_⟩
  refine (regular_flatten_cons _ _).2 ⟨(regular_attr _ _).2 (RadioIp.toPy_regular x.radio_ip), ?_⟩
  refine (regular_flatten_cons _ _).2 ⟨(regular_attr _ _).2 (regular_enum _ _), ?_⟩
  simp [regularInValues]

theorem LocationProtocol.TriggeredReportStopRequest.toPy_regular (x : LocationProtocol.TriggeredReportStopRequest) : regular x.toPy := by
  refine (regular_object _ _).2 ?_
  refine (regular_flatten_cons _ _).2 ⟨(regular_attr _ _).2 (regular_int _), ?_⟩
  refine (regular_flatten_cons _ _).2 ⟨(regular_attr _ _).2 (RadioIp.toPy_regular x.radio_ip), ?_⟩
  simp [regularInValues]

theorem LocationProtocol.DataUnion.toPy_regular (x : LocationProtocol.DataUnion) : regular x.toPy := by
  cases x with
  | triggeredReportAnswer x => exact LocationProtocol.TriggeredReportAnswer.toPy_regular x
  | emergencyReportStopRequest x => exact LocationProtocol.EmergencyReportStopRequest.toPy_regular x
  | conditionQuickGpsRequest x => exact LocationProtocol.ConditionQuickGpsRequest.toPy_regular x
  | conditionReport x => exact LocationProtocol.ConditionReport.toPy_regular x
  | emergencyReportStopAnswer x => exact LocationProtocol.EmergencyReportStopAnswer.toPy_regular x
  | conditionReportAnswer x => exact LocationProtocol.ConditionReportAnswer.toPy_regular x
  | standardAnswer x => exact LocationProtocol.StandardAnswer.toPy_regular x
  | standardRequest x => exact LocationProtocol.StandardRequest.toPy_regular x
  | triggeredReport x => exact LocationProtocol.TriggeredReport.toPy_regular x
  | triggeredReportStopAnswer x => exact LocationProtocol.TriggeredReportStopAnswer.toPy_regular x
  | standardAnswerWithRssi x => exact LocationProtocol.StandardAnswerWithRssi.toPy_regular x
  | conditionReportWithRssi x => exact LocationProtocol.ConditionReportWithRssi.toPy_regular x
  | triggeredReportStopRequest x => exact LocationProtocol.TriggeredReportStopRequest.toPy_regular x
  | emergencyReport x => exact LocationProtocol.EmergencyReport.toPy_regular x
  | conditionReportRequest x => exact LocationProtocol.ConditionReportRequest.toPy_regular x
  | triggeredReportRequest x => exact LocationProtocol.TriggeredReportRequest.toPy_regular x
  | conditionQuickGpsAnswer x => exact LocationProtocol.ConditionQuickGpsAnswer.toPy_regular x

theorem LocationProtocol.toPy_regular (x : LocationProtocol) : regular x.toPy := by
  refine (regular_object _ _).2 ?_
  refine (regular_flatten_cons _ _).2 ⟨(regular_attr _ _).2 (regular_enum _ _), ?_⟩
  refine (regular_flatten_cons _ _).2 ⟨(regular_attr _ _).2 (regular_int _), ?_⟩
  refine (regular_flatten_cons _ _).2 ⟨regular_optAttr _ _ _ fun y => LocationProtocol.DataUnion.toPy_regular y, ?_⟩
  simp [regularInValues]

theorem RadioControlProtocol.BroadcastStatusConfigurationReply.toPy_regular (x : RadioControlProtocol.BroadcastStatusConfigurationReply) : regular x.toPy := by
  refine (regular_object _ _).2 ?_
  refine (regular_flatten_cons _ _).2 ⟨(regular_attr _ _).2 (regular_enum _ _), ?_⟩
  simp [regularInValues]

theorem RadioControlProtocol.BroadcastConfiguration.toPy_regular (x : RadioControlProtocol.BroadcastConfiguration) : regular x.toPy := by
  refine (regular_object _ _).2 ?_
  refine (regular_flatten_cons _ _).2 ⟨(regular_attr _ _).2 (regular_int _), ?_⟩
  refine (regular_flatten_cons _ _).2 ⟨(regular_attr _ _).2 (regular_int _), ?_⟩
  simp [regularInValues]

theorem RadioControlProtocol.BroadcastStatusConfigurationRequest.toPy_regular (x : RadioControlProtocol.BroadcastStatusConfigurationRequest) : regular x.toPy := by
  refine (regular_object _ _).2 ?_
  refine (regular_flatten_cons _ _).2 ⟨(regular_attr _ _).2 (regular_int _), ?_⟩
  refine (regular_flatten_cons _ _).2 ⟨(regular_attr _ _).2 (regular_list _ _ fun y => RadioControlProtocol.BroadcastConfiguration.toPy_regular y), ?_⟩
  simp [regularInValues]

theorem RadioControlProtocol.RadioIdentificationReply.toPy_regular (x : RadioControlProtocol.RadioIdentificationReply) : regular x.toPy := by
  refine (regular_object _ _).2 ?_
  refine (regular_flatten_cons _ _).2 ⟨regular_optAttr _ _ _ fun y => regular_bytes _, ?_⟩
  refine (regular_flatten_cons _ _).2 ⟨regular_optAttr _ _ _ fun y => regular_str _, ?_⟩
  refine (regular_flatten_cons _ _).2 ⟨regular_optAttr _ _ _ fun y => regular_bytes _, ?_⟩
  simp [regularInValues]

theorem RadioControlProtocol.GenericData.toPy_regular (x : RadioControlProtocol.GenericData) : regular x.toPy := by
  refine (regular_object _ _).2 ?_
  refine (regular_flatten_cons _ _).2 ⟨(regular_attr _ _).2 (regular_bytes _), ?_⟩
  simp [regularInValues]

theorem RadioControlProtocol.CallRequest.toPy_regular (x : RadioControlProtocol.CallRequest) : regular x.toPy := by
  refine (regular_object _ _).2 ?_
  refine (regular_flatten_cons _ _).2 ⟨(regular_attr _ _).2 (regular_enum _ _), ?_⟩
  refine (regular_flatten_cons _ _).2 ⟨(regular_attr _ _).2 (regular_int _), ?_⟩
  simp [regularInValues]

theorem RadioControlProtocol.RemoveRadioReply.toPy_regular (x : RadioControlProtocol.RemoveRadioReply) : regular x.toPy := by
  refine (regular_object _ _).2 ?_
  refine (regular_flatten_cons _ _).2 ⟨(regular_attr _ _).2 (regular_enum _ _), ?_⟩
  simp [regularInValues]

theorem RadioControlProtocol.RemoveRadioRequest.toPy_regular (x : RadioControlProtocol.RemoveRadioRequest) : regular x.toPy := by
  refine (regular_object _ _).2 ?_
  simp [regularInValues]

theorem RadioControlProtocol.CallReply.toPy_regular (x : RadioControlProtocol.CallReply) : regular x.toPy := by
  refine (regular_object _ _).2 ?_
  refine (regular_flatten_cons _ _).2 ⟨(regular_attr _ _).2 (regular_enum _ _), ?_⟩
  simp [regularInValues]

theorem RadioControlProtocol.DataUnion.toPy_regular (x : RadioControlProtocol.DataUnion) : regular x.toPy := by
  cases x with
  | callReply x => exact RadioControlProtocol.CallReply.toPy_regular x
  | radioIdentificationReply x => exact RadioControlProtocol.RadioIdentificationReply.toPy_regular x
  | broadcastStatusConfigurationRequest x => exact RadioControlProtocol.BroadcastStatusConfigurationRequest.toPy_regular x
  | callRequest x => exact RadioControlProtocol.CallRequest.toPy_regular x
  | removeRadioRequest x => exact RadioControlProtocol.RemoveRadioRequest.toPy_regular x
  | broadcastStatusConfigurationReply x => exact RadioControlProtocol.BroadcastStatusConfigurationReply.toPy_regular x
  | removeRadioReply x => exact RadioControlProtocol.RemoveRadioReply.toPy_regular x
  | genericData x => exact RadioControlProtocol.GenericData.toPy_regular x

theorem RadioControlProtocol.toPy_regular (x : RadioControlProtocol) : regular x.toPy := by
  refine (regular_object _ _).2 ?_
  refine (regular_flatten_cons _ _).2 ⟨(regular_attr _ _).2 (regular_enum _ _), ?_⟩
  refine (regular_flatten_cons _ _).2 ⟨(regular_attr _ _).2 (regular_int _), ?_⟩
  refine (regular_flatten_cons _ _).2 ⟨(regular_attr _ _).2 (RadioControlProtocol.DataUnion.toPy_regular x.data), ?_⟩
  simp [regularInValues]

theorem RadioRegistrationService.toPy_regular (x : RadioRegistrationService) : regular x.toPy := by
  refine (regular_object _ _).2 ?_
  refine (regular_flatten_cons _ _).2 ⟨(regular_attr _ _).2 (regular_bytes _), ?_⟩
  refine (regular_flatten_cons _ _).2 ⟨(regular_attr _ _).2 (regular_enum _ _), ?_⟩
  refine (regular_flatten_cons _ _).2 ⟨(regular_attr _ _).2 (regular_int _), ?_⟩
  refine (regular_flatten_cons _ _).2 ⟨(regular_attr _ _).2 (RadioIp.toPy_regular x.radio_ip), ?_⟩
  refine (regular_flatten_cons _ _).2 ⟨regular_optAttr _ _ _ fun y => regular_int _, ?_⟩
  refine (regular_flatten_cons _ _).2 ⟨regular_optAttr _ _ _ fun y => regular_int _, ?_⟩
  simp [regularInValues]

theorem TelemetryProtocol.StandardStatusReport.toPy_regular (x : TelemetryProtocol.StandardStatusReport) : regular x.toPy := by
  refine (regular_object _ _).2 ?_
  refine (regular_flatten_cons _ _).2 ⟨(regular_attr _ _).2 (RadioIp.toPy_regular x.source_ip), ?_⟩
  refine (regular_flatten_cons _ _).2 ⟨(regular_attr _ _).2 (RadioIp.toPy_regular x.target_ip), ?_⟩
  refine (regular_flatten_cons _ _).2 ⟨(regular_attr _ _).2 (regular_enum _ _), ?_⟩
  refine (regular_flatten_cons _ _).2 ⟨(regular_attr _ _).2 (regular_enum _ _), ?_⟩
  refine (regular_flatten_cons _ _).2 ⟨(regular_attr _ _).2 (regular_bytes _), ?_⟩
  refine (regular_flatten_cons _ _).2 ⟨(regular_attr _ _).2 (regular_enum _ _), ?_⟩
  simp [regularInValues]

theorem TelemetryProtocol.VioExtendedStatus.toPy_regular (x : TelemetryProtocol.VioExtendedStatus) : regular x.toPy := by
  refine (regular_object _ _).2 ?_
  refine (regular_flatten_cons _ _).2 ⟨(regular_attr _ _).2 (regular_enum _ _), ?_⟩
  refine (regular_flatten_cons _ _).2 ⟨(regular_attr _ _).2 (regular_int _), ?_⟩
  refine (regular_flatten_cons _ _).2 ⟨(regular_attr _ _).2 (regular_str _), ?_⟩
  simp [regularInValues]

theorem TelemetryProtocol.RemoteControlAnswer.toPy_regular (x : TelemetryProtocol.RemoteControlAnswer) : regular x.toPy := by
  refine (regular_object _ _).2 ?_
  refine (regular_flatten_cons _ _).2 ⟨(regular_attr _ _).2 (RadioIp.toPy_regular x.source_ip), ?_⟩
  refine (regular_flatten_cons _ _).2 ⟨(regular_attr _ _).2 (RadioIp.toPy_regular x.target_ip), ?_⟩
  refine (regular_flatten_cons _ _).2 ⟨(regular_attr _ _).2 (regular_enum _ _), ?_⟩
  refine (regular_flatten_cons _ _).2 ⟨(regular_attr _ _).2 (regular_enum _ _), ?_⟩
  refine (regular_flatten_cons _ _).2 ⟨(regular_attr _ _).2 (regular_bytes _), ?_⟩
  refine (regular_flatten_cons _ _).2 ⟨(regular_attr _ _).2 (regular_enum _ _), ?_⟩
  simp [regularInValues]

theorem TelemetryProtocol.RemoteControlRequest.toPy_regular (x : TelemetryProtocol.RemoteControlRequest) : regular x.toPy := by
  refine (regular_object _ _).2 ?_
  refine (regular_flatten_cons _ _).2 ⟨(regular_attr _ _).2 (RadioIp.toPy_regular x.source_ip), ?_⟩
  refine (regular_flatten_cons _ _).2 ⟨(regular_attr _ _).2 (RadioIp.toPy_regular x.target_ip), ?_⟩
  refine (regular_flatten_cons _ _).2 ⟨(regular_attr _ _).2 (regular_enum _ _), ?_⟩
  refine (regular_flatten_cons _ _).2 ⟨(regular_attr _ _).2 (regular_enum _ _), ?_⟩
  refine (regular_flatten_cons _ _).2 ⟨(regular_attr _ _).2 (regular_bytes _), ?_⟩
  refine (regular_flatten_cons _ _).2 ⟨(regular_attr _ _).2 (regular_enum _ _), ?_⟩
  simp [regularInValues]

theorem TelemetryProtocol.ExtendedStatusReport.toPy_regular (x : TelemetryProtocol.ExtendedStatusReport) : regular x.toPy := by
  refine (regular_object _ _).2 ?_
  refine (regular_flatten_cons _ _).2 ⟨(regular_attr _ _).2 (RadioIp.toPy_regular x.source_ip), ?_⟩
  refine (regular_flatten_cons _ _).2 ⟨(regular_attr _ _).2 (RadioIp.toPy_regular x.target_ip), ?_⟩
  refine (regular_flatten_cons _ _).2 ⟨(regular_attr _ _).2 (regular_enum _ _), ?_⟩
  refine (regular_flatten_cons _ _).2 ⟨(regular_attr _ _).2 (regular_enum _ _), ?_⟩
  refine (regular_flatten_cons _ _).2 ⟨(regular_attr _ _).2 (regular_bytes _), ?_⟩
  refine (regular_flatten_cons _ _).2 ⟨(regular_attr _ _).2 (TelemetryProtocol.VioExtendedStatus.toPy_regular x.result_messages), ?_⟩
  simp [regularInValues]

theorem TelemetryProtocol.StandardStatusRequest.toPy_regular (x : TelemetryProtocol.StandardStatusRequest) : regular x.toPy := by
  refine (regular_object _ _).2 ?_
  refine (regular_flatten_cons _ _).2 ⟨(regular_attr _ _).2 (RadioIp.toPy_regular x.source_ip), ?_⟩
  refine (regular_flatten_cons _ _).2 ⟨(regular_attr _ _).2 (RadioIp.toPy_regular x.target_ip), ?_⟩
  refine (regular_flatten_cons _ _).2 ⟨(regular_attr _ _).2 (regular_enum _ _), ?_⟩
  refine (regular_flatten_cons _ _).2 ⟨(regular_attr _ _).2 (regular_enum _ _), ?_⟩
  refine (regular_flatten_cons _ _).2 ⟨(regular_attr _ _).2 (regular_bytes _), ?_⟩
  simp [regularInValues]

theorem TelemetryProtocol.DataUnion.toPy_regular (x : TelemetryProtocol.DataUnion) : regular x.toPy := by
  cases x with
  | standardStatusRequest x => exact TelemetryProtocol.StandardStatusRequest.toPy_regular x
  | remoteControlAnswer x => exact TelemetryProtocol.RemoteControlAnswer.toPy_regular x
  | extendedStatusReport x => exact TelemetryProtocol.ExtendedStatusReport.toPy_regular x
  | remoteControlRequest x => exact TelemetryProtocol.RemoteControlRequest.toPy_regular x
  | standardStatusReport x => exact TelemetryProtocol.StandardStatusReport.toPy_regular x

theorem TelemetryProtocol.toPy_regular (x : TelemetryProtocol) : regular x.toPy := by
  refine (regular_object _ _).2 ?_
  refine (regular_flatten_cons _ _).2 ⟨(regular_attr _ _).2 (regular_enum _ _), ?_⟩
  refine (regular_flatten_cons _ _).2 ⟨(regular_attr _ _).2 (regular_int _), ?_⟩
  refine (regular_flatten_cons _ _).2 ⟨(regular_attr _ _).2 (regular_int _), ?_⟩
  refine (regular_flatten_cons _ _).2 ⟨(regular_attr _ _).2 (regular_enum _ _), ?_⟩
  refine (regular_flatten_cons _ _).2 ⟨regular_optAttr _ _ _ fun y => TelemetryProtocol.DataUnion.toPy_regular y, ?_⟩
  simp [regularInValues]

theorem TextMessageProtocol.toPy_regular (x : TextMessageProtocol) : regular x.toPy := by
  refine (regular_object _ _).2 ?_
  refine (regular_flatten_cons _ _).2 ⟨(regular_attr _ _).2 (regular_enum _ _), ?_⟩
  refine (regular_flatten_cons _ _).2 ⟨(regular_attr _ _).2 (regular_enum _ _), ?_⟩
  refine (regular_flatten_cons _ _).2 ⟨(regular_attr _ _).2 (regular_int _), ?_⟩
  refine (regular_flatten_cons _ _).2 ⟨(regular_attr _ _).2 (regular_enum _ _), ?_⟩
  refine (regular_flatten_cons _ _).2 ⟨(regular_attr _ _).2 (regular_int _), ?_⟩
  refine (regular_flatten_cons _ _).2 ⟨regular_optAttr _ _ _ fun y => regular_int _, ?_⟩
  refine (regular_flatten_cons _ _).2 ⟨(regular_attr _ _).2 (regular_int _), ?_⟩
  refine (regular_flatten_cons _ _).2 ⟨(regular_attr _ _).2 (RadioIp.toPy_regular x.destination_ip), ?_⟩
  refine (regular_flatten_cons _ _).2 ⟨regular_optAttr _ _ _ fun y => RadioIp.toPy_regular y, ?_⟩
  refine (regular_flatten_cons _ _).2 ⟨regular_optAttr _ _ _ fun y => regular_enum _ _, ?_⟩
  refine (regular_flatten_cons _ _).2 ⟨regular_optAttr _ _ _ fun _ => regular_int _, ?_⟩
  refine (regular_flatten_cons _ _).2 ⟨regular_optAttr _ _ _ fun y => regular_str _, ?_⟩
  refine (regular_flatten_cons _ _).2 ⟨regular_optAttr _ _ _ fun y => regular_str _, ?_⟩
  simp [regularInValues]

theorem HyteraDmrApplicationProtocol.UndefinedProtocol.toPy_regular (x : HyteraDmrApplicationProtocol.UndefinedProtocol) : regular x.toPy := by
  refine (regular_object _ _).2 ?_
  refine (regular_flatten_cons _ _).2 ⟨(regular_attr _ _).2 (regular_bytes _), ?_⟩
  simp [regularInValues]

theorem HyteraDmrApplicationProtocol.DataUnion.toPy_regular (x : HyteraDmrApplicationProtocol.DataUnion) : regular x.toPy := by
  cases x with
  | radioRegistrationService x => exact RadioRegistrationService.toPy_regular x
  | telemetryProtocol x => exact TelemetryProtocol.toPy_regular x
  | radioControlProtocol x => exact RadioControlProtocol.toPy_regular x
  | textMessageProtocol x => exact TextMessageProtocol.toPy_regular x
  | dataDeliveryStates x => exact DataDeliveryStates.toPy_regular x
  | locationProtocol x => exact LocationProtocol.toPy_regular x
  | dataTransmitProtocol x => exact DataTransmitProtocol.toPy_regular x

theorem HyteraDmrApplicationProtocol.toPy_regular (x : HyteraDmrApplicationProtocol) : regular x.toPy := by
  refine (regular_object _ _).2 ?_
  refine (regular_flatten_cons _ _).2 ⟨(regular_attr _ _).2 (regular_bool _), ?_⟩
  refine (regular_flatten_cons _ _).2 ⟨(regular_attr _ _).2 (regular_enum _ _), ?_⟩
  refine (regular_flatten_cons _ _).2 ⟨regular_optAttr _ _ _ fun y => HyteraDmrApplicationProtocol.DataUnion.toPy_regular y, ?_⟩
  refine (regular_flatten_cons _ _).2 ⟨(regular_attr _ _).2 (regular_int _), ?_⟩
  refine (regular_flatten_cons _ _).2 ⟨(regular_attr _ _).2 (regular_bytes _), ?_⟩
  simp [regularInValues]

theorem HyteraRadioNetworkProtocol.toPy_regular (x : HyteraRadioNetworkProtocol) : regular x.toPy := by
  refine (regular_object _ _).2 ?_
  refine (regular_flatten_cons _ _).2 ⟨(regular_attr _ _).2 (regular_bytes _), ?_⟩
  refine (regular_flatten_cons _ _).2 ⟨(regular_attr _ _).2 (regular_int _), ?_⟩
  refine (regular_flatten_cons _ _).2 ⟨(regular_attr _ _).2 (regular_int _), ?_⟩
  refine (regular_flatten_cons _ _).2 ⟨(regular_attr _ _).2 (regular_enum _ _), ?_⟩
  refine (regular_flatten_cons _ _).2 ⟨(regular_attr _ _).2 (regular_int _), ?_⟩
  refine (regular_flatten_cons _ _).2 ⟨(regular_attr _ _).2 (regular_int _), ?_⟩
  refine (regular_flatten_cons _ _).2 ⟨(regular_attr _ _).2 (regular_int _), ?_⟩
  refine (regular_flatten_cons _ _).2 ⟨(regular_attr _ _).2 (regular_int _), ?_⟩
  refine (regular_flatten_cons _ _).2 ⟨(regular_attr _ _).2 (regular_int _), ?_⟩
  refine (regular_flatten_cons _ _).2 ⟨regular_optAttr _ _ _ fun y => HyteraDmrApplicationProtocol.toPy_regular y, ?_⟩
  simp [regularInValues]

theorem HyteraSimpleTransportReliabilityProtocol.Option.toPy_regular (x : HyteraSimpleTransportReliabilityProtocol.Option) : regular x.toPy := by
  refine (regular_object _ _).2 ?_
  refine (regular_flatten_cons _ _).2 ⟨(regular_attr _ _).2 (regular_bool _), ?_⟩
  refine (regular_flatten_cons _ _).2 ⟨(regular_attr _ _).2 (regular_enum _ _), ?_⟩
  refine (regular_flatten_cons _ _).2 ⟨(regular_attr _ _).2 (regular_int _), ?_⟩
  refine (regular_flatten_cons _ _).2 ⟨(regular_attr _ _).2 (regular_bytes _), ?_⟩
  simp [regularInValues]

theorem HyteraSimpleTransportReliabilityProtocol.toPy_regular (x : HyteraSimpleTransportReliabilityProtocol) : regular x.toPy := by
  refine (regular_object _ _).2 ?_
  refine (regular_flatten_cons _ _).2 ⟨(regular_attr _ _).2 (regular_bytes _), ?_⟩
  refine (regular_flatten_cons _ _).2 ⟨(regular_attr _ _).2 (regular_int _), ?_⟩
  refine (regular_flatten_cons _ _).2 ⟨(regular_attr _ _).2 (regular_int _), ?_⟩
  refine (regular_flatten_cons _ _).2 ⟨(regular_attr _ _).2 (regular_bool _), ?_⟩
  refine (regular_flatten_cons _ _).2 ⟨(regular_attr _ _).2 (regular_bool _), ?_⟩
  refine (regular_flatten_cons _ _).2 ⟨(regular_attr _ _).2 (regular_bool _), ?_⟩
  refine (regular_flatten_cons _ _).2 ⟨(regular_attr _ _).2 (regular_bool _), ?_⟩
  refine (regular_flatten_cons _ _).2 ⟨(regular_attr _ _).2 (regular_bool _), ?_⟩
  refine (regular_flatten_cons _ _).2 ⟨(regular_attr _ _).2 (regular_bool _), ?_⟩
  refine (regular_flatten_cons _ _).2 ⟨(regular_attr _ _).2 (regular_int _), ?_⟩
  refine (regular_flatten_cons _ _).2 ⟨regular_optAttr _ _ _ fun y => regular_list _ _ fun y => HyteraSimpleTransportReliabilityProtocol.Option.toPy_regular y, ?_⟩
  refine (regular_flatten_cons _ _).2 ⟨regular_optAttr _ _ _ fun y => regular_list _ _ fun y => HyteraDmrApplicationProtocol.toPy_regular y, ?_⟩
  refine (regular_flatten_cons _ _).2 ⟨regular_optAttr _ _ _ fun y => regular_bytes _, ?_⟩
  simp [regularInValues]

theorem IpSiteConnectHeartbeat.Keepalive.toPy_regular (x : IpSiteConnectHeartbeat.Keepalive) : regular x.toPy := by
  refine (regular_object _ _).2 ?_
  refine (regular_flatten_cons _ _).2 ⟨(regular_attr _ _).2 (regular_bytes _), ?_⟩
  simp [regularInValues]

theorem IpSiteConnectHeartbeat.PingPong.toPy_regular (x : IpSiteConnectHeartbeat.PingPong) : regular x.toPy := by
  refine (regular_object _ _).2 ?_
  refine (regular_flatten_cons _ _).2 ⟨(regular_attr _ _).2 (regular_bytes _), ?_⟩
  refine (regular_flatten_cons _ _).2 ⟨(regular_attr _ _).2 (regular_bytes _), ?_⟩
  refine (regular_flatten_cons _ _).2 ⟨(regular_attr _ _).2 (regular_bytes _), ?_⟩
  refine (regular_flatten_cons _ _).2 ⟨(regular_attr _ _).2 (regular_int _), ?_⟩
  refine (regular_flatten_cons _ _).2 ⟨(regular_attr _ _).2 (regular_bytes _), ?_⟩
  simp [regularInValues]

theorem IpSiteConnectHeartbeat.Unknown.toPy_regular (x : IpSiteConnectHeartbeat.Unknown) : regular x.toPy := by
  refine (regular_object _ _).2 ?_
  refine (regular_flatten_cons _ _).2 ⟨(regular_attr _ _).2 (regular_bytes _), ?_⟩
  simp [regularInValues]

theorem IpSiteConnectHeartbeat.DataUnion.toPy_regular (x : IpSiteConnectHeartbeat.DataUnion) : regular x.toPy := by
  cases x with
  | keepalive x => exact IpSiteConnectHeartbeat.Keepalive.toPy_regular x
  | pingPong x => exact IpSiteConnectHeartbeat.PingPong.toPy_regular x
  | unknown x => exact IpSiteConnectHeartbeat.Unknown.toPy_regular x

theorem IpSiteConnectHeartbeat.toPy_regular (x : IpSiteConnectHeartbeat) : regular x.toPy := by
  refine (regular_object _ _).2 ?_
  refine (regular_flatten_cons _ _).2 ⟨(regular_attr _ _).2 (IpSiteConnectHeartbeat.DataUnion.toPy_regular x.data), ?_⟩
  simp [regularInValues]

theorem IpSiteConnectProtocol.toPy_regular (x : IpSiteConnectProtocol) : regular x.toPy := by
  refine (regular_object _ _).2 ?_
  refine (regular_flatten_cons _ _).2 ⟨(regular_attr _ _).2 (regular_bytes _), ?_⟩
  refine (regular_flatten_cons _ _).2 ⟨(regular_attr _ _).2 (regular_bytes _), ?_⟩
  refine (regular_flatten_cons _ _).2 ⟨(regular_attr _ _).2 (regular_int _), ?_⟩
  refine (regular_flatten_cons _ _).2 ⟨(regular_attr _ _).2 (regular_bytes _), ?_⟩
  refine (regular_flatten_cons _ _).2 ⟨(regular_attr _ _).2 (regular_enum _ _), ?_⟩
  refine (regular_flatten_cons _ _).2 ⟨(regular_attr _ _).2 (regular_bytes _), ?_⟩
  refine (regular_flatten_cons _ _).2 ⟨(regular_attr _ _).2 (regular_enum _ _), ?_⟩
  refine (regular_flatten_cons _ _).2 ⟨(regular_attr _ _).2 (regular_enum _ _), ?_⟩
  refine (regular_flatten_cons _ _).2 ⟨(regular_attr _ _).2 (regular_int _), ?_⟩
  refine (regular_flatten_cons _ _).2 ⟨(regular_attr _ _).2 (regular_enum _ _), ?_⟩
  refine (regular_flatten_cons _ _).2 ⟨(regular_attr _ _).2 (regular_bytes _), ?_⟩
  refine (regular_flatten_cons _ _).2 ⟨(regular_attr _ _).2 (regular_bytes _), ?_⟩
  refine (regular_flatten_cons _ _).2 ⟨(regular_attr _ _).2 (regular_bytes _), ?_⟩
  refine (regular_flatten_cons _ _).2 ⟨(regular_attr _ _).2 (regular_enum _ _), ?_⟩
  refine (regular_flatten_cons _ _).2 ⟨(regular_attr _ _).2 (regular_int _), ?_⟩
  refine (regular_flatten_cons _ _).2 ⟨(regular_attr _ _).2 (regular_int _), ?_⟩
  refine (regular_flatten_cons _ _).2 ⟨(regular_attr _ _).2 (regular_int _), ?_⟩
  refine (regular_flatten_cons _ _).2 ⟨regular_optAttr _ _ _ fun y => regular_bytes _, ?_⟩
  simp [regularInValues]

theorem RealTimeTransportProtocol.FixedHeader.toPy_regular (x : RealTimeTransportProtocol.FixedHeader) : regular x.toPy := by
  refine (regular_object _ _).2 ?_
  refine (regular_flatten_cons _ _).2 ⟨(regular_attr _ _).2 (regular_int _), ?_⟩
  refine (regular_flatten_cons _ _).2 ⟨(regular_attr _ _).2 (regular_bool _), ?_⟩
  refine (regular_flatten_cons _ _).2 ⟨(regular_attr _ _).2 (regular_bool _), ?_⟩
  refine (regular_flatten_cons _ _).2 ⟨(regular_attr _ _).2 (regular_int _), ?_⟩
  refine (regular_flatten_cons _ _).2 ⟨(regular_attr _ _).2 (regular_bool _), ?_⟩
  refine (regular_flatten_cons _ _).2 ⟨(regular_attr _ _).2 (regular_int _), ?_⟩
  refine (regular_flatten_cons _ _).2 ⟨(regular_attr _ _).2 (regular_int _), ?_⟩
  refine (regular_flatten_cons _ _).2 ⟨(regular_attr _ _).2 (regular_int _), ?_⟩
  refine (regular_flatten_cons _ _).2 ⟨(regular_attr _ _).2 (regular_int _), ?_⟩
  refine (regular_flatten_cons _ _).2 ⟨(regular_attr _ _).2 (regular_list _ _ fun y => regular_int _), ?_⟩
  simp [regularInValues]

theorem RealTimeTransportProtocol.HeaderExtension.toPy_regular (x : RealTimeTransportProtocol.HeaderExtension) : regular x.toPy := by
  refine (regular_object _ _).2 ?_
  refine (regular_flatten_cons _ _).2 ⟨(regular_attr _ _).2 (regular_int _), ?_⟩
  refine (regular_flatten_cons _ _).2 ⟨(regular_attr _ _).2 (regular_int _), ?_⟩
  refine (regular_flatten_cons _ _).2 ⟨(regular_attr _ _).2 (regular_int _), ?_⟩
  refine (regular_flatten_cons _ _).2 ⟨(regular_attr _ _).2 (regular_bool _), ?_⟩
  refine (regular_flatten_cons _ _).2 ⟨(regular_attr _ _).2 (RadioId.toPy_regular x.source_id), ?_⟩
  refine (regular_flatten_cons _ _).2 ⟨(regular_attr _ _).2 (RadioId.toPy_regular x.destination_id), ?_⟩
  refine (regular_flatten_cons _ _).2 ⟨(regular_attr _ _).2 (regular_enum _ _), ?_⟩
  refine (regular_flatten_cons _ _).2 ⟨(regular_attr _ _).2 (regular_bytes _), ?_⟩
  simp [regularInValues]

theorem RealTimeTransportProtocol.toPy_regular (x : RealTimeTransportProtocol) : regular x.toPy := by
  refine (regular_object _ _).2 ?_
  refine (regular_flatten_cons _ _).2 ⟨(regular_attr _ _).2 (RealTimeTransportProtocol.FixedHeader.toPy_regular x.fixed_header), ?_⟩
  refine (regular_flatten_cons _ _).2 ⟨regular_optAttr _ _ _ fun y => RealTimeTransportProtocol.HeaderExtension.toPy_regular y, ?_⟩
  refine (regular_flatten_cons _ _).2 ⟨regular_optAttr' _ _ (by intro v hv; split at hv <;> cases hv; exact regular_int _), ?_⟩
  refine (regular_flatten_cons _ _).2 ⟨(regular_attr _ _).2 (regular_int _), ?_⟩
  refine (regular_flatten_cons _ _).2 ⟨(regular_attr _ _).2 (regular_bytes _), ?_⟩
  refine (regular_flatten_cons _ _).2 ⟨regular_optAttr _ _ _ fun y => regular_bytes _, ?_⟩
  simp [regularInValues]

end Dmr.Hytera

namespace Dmr.Etsi

theorem DmrCsbk.NegativeAckResponseData.toPy_regular (x : DmrCsbk.NegativeAckResponseData) : regular x.toPy := by
  refine (regular_object _ _).2 ?_
  refine (regular_flatten_cons _ _).2 ⟨(regular_attr _ _).2 (regular_bool _), ?_⟩
  refine (regular_flatten_cons _ _).2 ⟨(regular_attr _ _).2 (regular_bool _), ?_⟩
  refine (regular_flatten_cons _ _).2 ⟨(regular_attr _ _).2 (regular_int _), ?_⟩
  refine (regular_flatten_cons _ _).2 ⟨(regular_attr _ _).2 (regular_int _), ?_⟩
  refine (regular_flatten_cons _ _).2 ⟨(regular_attr _ _).2 (regular_int _), ?_⟩
  refine (regular_flatten_cons _ _).2 ⟨(regular_attr _ _).2 (regular_int _), ?_⟩
  simp [regularInValues]

theorem DmrCsbk.ServiceOptions.toPy_regular (x : DmrCsbk.ServiceOptions) : regular x.toPy := by
  refine (regular_object _ _).2 ?_
  refine (regular_flatten_cons _ _).2 ⟨(regular_attr _ _).2 (regular_bool _), ?_⟩
  refine (regular_flatten_cons _ _).2 ⟨(regular_attr _ _).2 (regular_bool _), ?_⟩
  refine (regular_flatten_cons _ _).2 ⟨(regular_attr _ _).2 (regular_int _), ?_⟩
  refine (regular_flatten_cons _ _).2 ⟨(regular_attr _ _).2 (regular_bool _), ?_⟩
  refine (regular_flatten_cons _ _).2 ⟨(regular_attr _ _).2 (regular_bool _), ?_⟩
  refine (regular_flatten_cons _ _).2 ⟨(regular_attr _ _).2 (regular_int _), ?_⟩
  simp [regularInValues]

theorem DmrCsbk.UnitToUnitVoiceRequestData.toPy_regular (x : DmrCsbk.UnitToUnitVoiceRequestData) : regular x.toPy := by
  refine (regular_object _ _).2 ?_
  refine (regular_flatten_cons _ _).2 ⟨(regular_attr _ _).2 (DmrCsbk.ServiceOptions.toPy_regular x.service_options), ?_⟩
  refine (regular_flatten_cons _ _).2 ⟨(regular_attr _ _).2 (regular_int _), ?_⟩
  refine (regular_flatten_cons _ _).2 ⟨(regular_attr _ _).2 (regular_int _), ?_⟩
  refine (regular_flatten_cons _ _).2 ⟨(regular_attr _ _).2 (regular_int _), ?_⟩
  simp [regularInValues]

theorem DmrCsbk.PreambleData.toPy_regular (x : DmrCsbk.PreambleData) : regular x.toPy := by
  refine (regular_object _ _).2 ?_
  refine (regular_flatten_cons _ _).2 ⟨(regular_attr _ _).2 (regular_enum _ _), ?_⟩
  refine (regular_flatten_cons _ _).2 ⟨(regular_attr _ _).2 (regular_enum _ _), ?_⟩
  refine (regular_flatten_cons _ _).2 ⟨(regular_attr _ _).2 (regular_int _), ?_⟩
  refine (regular_flatten_cons _ _).2 ⟨(regular_attr _ _).2 (regular_int _), ?_⟩
  refine (regular_flatten_cons _ _).2 ⟨(regular_attr _ _).2 (regular_int _), ?_⟩
  refine (regular_flatten_cons _ _).2 ⟨(regular_attr _ _).2 (regular_int _), ?_⟩
  simp [regularInValues]

theorem DmrCsbk.ChannelTimingData.toPy_regular (x : DmrCsbk.ChannelTimingData) : regular x.toPy := by
  refine (regular_object _ _).2 ?_
  refine (regular_flatten_cons _ _).2 ⟨(regular_attr _ _).2 (regular_int _), ?_⟩
  refine (regular_flatten_cons _ _).2 ⟨(regular_attr _ _).2 (regular_int _), ?_⟩
  refine (regular_flatten_cons _ _).2 ⟨(regular_attr _ _).2 (regular_int _), ?_⟩
  refine (regular_flatten_cons _ _).2 ⟨(regular_attr _ _).2 (regular_bool _), ?_⟩
  refine (regular_flatten_cons _ _).2 ⟨(regular_attr _ _).2 (regular_int _), ?_⟩
  refine (regular_flatten_cons _ _).2 ⟨(regular_attr _ _).2 (regular_bool _), ?_⟩
  refine (regular_flatten_cons _ _).2 ⟨(regular_attr _ _).2 (regular_int _), ?_⟩
  refine (regular_flatten_cons _ _).2 ⟨(regular_attr _ _).2 (regular_bool _), ?_⟩
  refine (regular_flatten_cons _ _).2 ⟨(regular_attr _ _).2 (regular_int _), ?_⟩
  refine (regular_flatten_cons _ _).2 ⟨(regular_attr _ _).2 (regular_bool _), ?_⟩
  simp [regularInValues]

theorem DmrCsbk.BsOutboundActivationData.toPy_regular (x : DmrCsbk.BsOutboundActivationData) : regular x.toPy := by
  refine (regular_object _ _).2 ?_
  refine (regular_flatten_cons _ _).2 ⟨(regular_attr _ _).2 (regular_int _), ?_⟩
  refine (regular_flatten_cons _ _).2 ⟨(regular_attr _ _).2 (regular_int _), ?_⟩
  refine (regular_flatten_cons _ _).2 ⟨(regular_attr _ _).2 (regular_int _), ?_⟩
  simp [regularInValues]

theorem DmrCsbk.UnitToUnitVoiceAnswerData.toPy_regular (x : DmrCsbk.UnitToUnitVoiceAnswerData) : regular x.toPy := by
  refine (regular_object _ _).2 ?_
  refine (regular_flatten_cons _ _).2 ⟨(regular_attr _ _).2 (DmrCsbk.ServiceOptions.toPy_regular x.service_options), ?_⟩
  refine (regular_flatten_cons _ _).2 ⟨(regular_attr _ _).2 (regular_enum _ _), ?_⟩
  refine (regular_flatten_cons _ _).2 ⟨(regular_attr _ _).2 (regular_int _), ?_⟩
  refine (regular_flatten_cons _ _).2 ⟨(regular_attr _ _).2 (regular_int _), ?_⟩
  simp [regularInValues]

theorem DmrCsbk.CsbkDataUnion.toPy_regular (x : DmrCsbk.CsbkDataUnion) : regular x.toPy := by
  cases x with
  | unitToUnitVoiceAnswerData x => exact DmrCsbk.UnitToUnitVoiceAnswerData.toPy_regular x
  | preambleData x => exact DmrCsbk.PreambleData.toPy_regular x
  | channelTimingData x => exact DmrCsbk.ChannelTimingData.toPy_regular x
  | unitToUnitVoiceRequestData x => exact DmrCsbk.UnitToUnitVoiceRequestData.toPy_regular x
  | bsOutboundActivationData x => exact DmrCsbk.BsOutboundActivationData.toPy_regular x
  | negativeAckResponseData x => exact DmrCsbk.NegativeAckResponseData.toPy_regular x

theorem DmrCsbk.toPy_regular (x : DmrCsbk) : regular x.toPy := by
  refine (regular_object _ _).2 ?_
  refine (regular_flatten_cons _ _).2 ⟨(regular_attr _ _).2 (regular_bool _), ?_⟩
  refine (regular_flatten_cons _ _).2 ⟨(regular_attr _ _).2 (regular_bool _), ?_⟩
  refine (regular_flatten_cons _ _).2 ⟨(regular_attr _ _).2 (regular_enum _ _), ?_⟩
  refine (regular_flatten_cons _ _).2 ⟨(regular_attr _ _).2 (regular_int _), ?_⟩
  refine (regular_flatten_cons _ _).2 ⟨regular_optAttr _ _ _ fun y => DmrCsbk.CsbkDataUnion.toPy_regular y, ?_⟩
  simp [regularInValues]

theorem DmrData.Rate1LastBlockUnconfirmed.toPy_regular (x : DmrData.Rate1LastBlockUnconfirmed) : regular x.toPy := by
  refine (regular_object _ _).2 ?_
  refine (regular_flatten_cons _ _).2 ⟨(regular_attr _ _).2 (regular_bytes _), ?_⟩
  refine (regular_flatten_cons _ _).2 ⟨(regular_attr _ _).2 (regular_bytes _), ?_⟩
  simp [regularInValues]

theorem DmrData.Rate12LastBlockConfirmed.toPy_regular (x : DmrData.Rate12LastBlockConfirmed) : regular x.toPy := by
  refine (regular_object _ _).2 ?_
  refine (regular_flatten_cons _ _).2 ⟨(regular_attr _ _).2 (regular_int _), ?_⟩
  refine (regular_flatten_cons _ _).2 ⟨(regular_attr _ _).2 (regular_int _), ?_⟩
  refine (regular_flatten_cons _ _).2 ⟨(regular_attr _ _).2 (regular_bytes _), ?_⟩
  refine (regular_flatten_cons _ _).2 ⟨(regular_attr _ _).2 (regular_bytes _), ?_⟩
  simp [regularInValues]

theorem DmrData.Rate12Confirmed.toPy_regular (x : DmrData.Rate12Confirmed) : regular x.toPy := by
  refine (regular_object _ _).2 ?_
  refine (regular_flatten_cons _ _).2 ⟨(regular_attr _ _).2 (regular_int _), ?_⟩
  refine (regular_flatten_cons _ _).2 ⟨(regular_attr _ _).2 (regular_int _), ?_⟩
  refine (regular_flatten_cons _ _).2 ⟨(regular_attr _ _).2 (regular_bytes _), ?_⟩
  simp [regularInValues]

theorem DmrData.Rate34LastBlockUnconfirmed.toPy_regular (x : DmrData.Rate34LastBlockUnconfirmed) : regular x.toPy := by
  refine (regular_object _ _).2 ?_
  refine (regular_flatten_cons _ _).2 ⟨(regular_attr _ _).2 (regular_bytes _), ?_⟩
  refine (regular_flatten_cons _ _).2 ⟨(regular_attr _ _).2 (regular_bytes _), ?_⟩
  simp [regularInValues]

theorem DmrData.Rate1LastBlockConfirmed.toPy_regular (x : DmrData.Rate1LastBlockConfirmed) : regular x.toPy := by
  refine (regular_object _ _).2 ?_
  refine (regular_flatten_cons _ _).2 ⟨(regular_attr _ _).2 (regular_int _), ?_⟩
  refine (regular_flatten_cons _ _).2 ⟨(regular_attr _ _).2 (regular_int _), ?_⟩
  refine (regular_flatten_cons _ _).2 ⟨(regular_attr _ _).2 (regular_bytes _), ?_⟩
  refine (regular_flatten_cons _ _).2 ⟨(regular_attr _ _).2 (regular_bytes _), ?_⟩
  simp [regularInValues]

theorem DmrData.Rate1Unconfirmed.toPy_regular (x : DmrData.Rate1Unconfirmed) : regular x.toPy := by
  refine (regular_object _ _).2 ?_
  refine (regular_flatten_cons _ _).2 ⟨(regular_attr _ _).2 (regular_bytes _), ?_⟩
  simp [regularInValues]

theorem DmrData.UdtLastBlock.toPy_regular (x : DmrData.UdtLastBlock) : regular x.toPy := by
  refine (regular_object _ _).2 ?_
  refine (regular_flatten_cons _ _).2 ⟨(regular_attr _ _).2 (regular_bytes _), ?_⟩
  refine (regular_flatten_cons _ _).2 ⟨(regular_attr _ _).2 (regular_bytes _), ?_⟩
  simp [regularInValues]

theorem DmrData.Rate34Confirmed.toPy_regular (x : DmrData.Rate34Confirmed) : regular x.toPy := by
  refine (regular_object _ _).2 ?_
  refine (regular_flatten_cons _ _).2 ⟨(regular_attr _ _).2 (regular_int _), ?_⟩
  refine (regular_flatten_cons _ _).2 ⟨(regular_attr _ _).2 (regular_int _), ?_⟩
  refine (regular_flatten_cons _ _).2 ⟨(regular_attr _ _).2 (regular_bytes _), ?_⟩
  simp [regularInValues]

theorem DmrData.Rate34LastBlockConfirmed.toPy_regular (x : DmrData.Rate34LastBlockConfirmed) : regular x.toPy := by
  refine (regular_object _ _).2 ?_
  refine (regular_flatten_cons _ _).2 ⟨(regular_attr _ _).2 (regular_int _), ?_⟩
  refine (regular_flatten_cons _ _).2 ⟨(regular_attr _ _).2 (regular_int _), ?_⟩
  refine (regular_flatten_cons _ _).2 ⟨(regular_attr _ _).2 (regular_bytes _), ?_⟩
  refine (regular_flatten_cons _ _).2 ⟨(regular_attr _ _).2 (regular_bytes _), ?_⟩
  simp [regularInValues]

theorem DmrData.Rate34Unconfirmed.toPy_regular (x : DmrData.Rate34Unconfirmed) : regular x.toPy := by
  refine (regular_object _ _).2 ?_
  refine (regular_flatten_cons _ _).2 ⟨(regular_attr _ _).2 (regular_bytes _), ?_⟩
  simp [regularInValues]

theorem DmrData.Rate12LastBlockUnconfirmed.toPy_regular (x : DmrData.Rate12LastBlockUnconfirmed) : regular x.toPy := by
  refine (regular_object _ _).2 ?_
  refine (regular_flatten_cons _ _).2 ⟨(regular_attr _ _).2 (regular_bytes _), ?_⟩
  refine (regular_flatten_cons _ _).2 ⟨(regular_attr _ _).2 (regular_bytes _), ?_⟩
  simp [regularInValues]

theorem DmrData.Rate1Confirmed.toPy_regular (x : DmrData.Rate1Confirmed) : regular x.toPy := by
  refine (regular_object _ _).2 ?_
  refine (regular_flatten_cons _ _).2 ⟨(regular_attr _ _).2 (regular_int _), ?_⟩
  refine (regular_flatten_cons _ _).2 ⟨(regular_attr _ _).2 (regular_int _), ?_⟩
  refine (regular_flatten_cons _ _).2 ⟨(regular_attr _ _).2 (regular_bytes _), ?_⟩
  simp [regularInValues]

theorem DmrData.Rate12Unconfirmed.toPy_regular (x : DmrData.Rate12Unconfirmed) : regular x.toPy := by
  refine (regular_object _ _).2 ?_
  refine (regular_flatten_cons _ _).2 ⟨(regular_attr _ _).2 (regular_bytes _), ?_⟩
  simp [regularInValues]

theorem DmrData.toPy_regular (x : DmrData) : regular x.toPy := by
  refine (regular_object _ _).2 ?_
  simp [regularInValues]

theorem DmrDataHeader.DataHeaderShortRaw.toPy_regular (x : DmrDataHeader.DataHeaderShortRaw) : regular x.toPy := by
  refine (regular_object _ _).2 ?_
  refine (regular_flatten_cons _ _).2 ⟨(regular_attr _ _).2 (regular_bool _), ?_⟩
  refine (regular_flatten_cons _ _).2 ⟨(regular_attr _ _).2 (regular_bool _), ?_⟩
  refine (regular_flatten_cons _ _).2 ⟨(regular_attr _ _).2 (regular_int _), ?_⟩
  refine (regular_flatten_cons _ _).2 ⟨(regular_attr _ _).2 (regular_enum _ _), ?_⟩
  refine (regular_flatten_cons _ _).2 ⟨(regular_attr _ _).2 (regular_enum _ _), ?_⟩
  refine (regular_flatten_cons _ _).2 ⟨(regular_attr _ _).2 (regular_int _), ?_⟩
  refine (regular_flatten_cons _ _).2 ⟨(regular_attr _ _).2 (regular_int _), ?_⟩
  refine (regular_flatten_cons _ _).2 ⟨(regular_attr _ _).2 (regular_int _), ?_⟩
  refine (regular_flatten_cons _ _).2 ⟨(regular_attr _ _).2 (regular_int _), ?_⟩
  refine (regular_flatten_cons _ _).2 ⟨(regular_attr _ _).2 (regular_int _), ?_⟩
  refine (regular_flatten_cons _ _).2 ⟨(regular_attr _ _).2 (regular_bool _), ?_⟩
  refine (regular_flatten_cons _ _).2 ⟨(regular_attr _ _).2 (regular_bool _), ?_⟩
  refine (regular_flatten_cons _ _).2 ⟨(regular_attr _ _).2 (regular_int _), ?_⟩
  refine (regular_flatten_cons _ _).2 ⟨(regular_attr _ _).2 (regular_bytes _), ?_⟩
  simp [regularInValues]

theorem DmrDataHeader.DataHeaderProprietary.toPy_regular (x : DmrDataHeader.DataHeaderProprietary) : regular x.toPy := by
  refine (regular_object _ _).2 ?_
  refine (regular_flatten_cons _ _).2 ⟨(regular_attr _ _).2 (regular_enum _ _), ?_⟩
  refine (regular_flatten_cons _ _).2 ⟨(regular_attr _ _).2 (regular_enum _ _), ?_⟩
  refine (regular_flatten_cons _ _).2 ⟨(regular_attr _ _).2 (regular_int _), ?_⟩
  refine (regular_flatten_cons _ _).2 ⟨(regular_attr _ _).2 (regular_bytes _), ?_⟩
  refine (regular_flatten_cons _ _).2 ⟨(regular_attr _ _).2 (regular_bytes _), ?_⟩
  simp [regularInValues]

theorem DmrDataHeader.DataHeaderUndefined.toPy_regular (x : DmrDataHeader.DataHeaderUndefined) : regular x.toPy := by
  refine (regular_object _ _).2 ?_
  refine (regular_flatten_cons _ _).2 ⟨(regular_attr _ _).2 (regular_bytes _), ?_⟩
  simp [regularInValues]

theorem DmrDataHeader.DataHeaderShortStatusPrecoded.toPy_regular (x : DmrDataHeader.DataHeaderShortStatusPrecoded) : regular x.toPy := by
  refine (regular_object _ _).2 ?_
  refine (regular_flatten_cons _ _).2 ⟨(regular_attr _ _).2 (regular_bool _), ?_⟩
  refine (regular_flatten_cons _ _).2 ⟨(regular_attr _ _).2 (regular_bool _), ?_⟩
  refine (regular_flatten_cons _ _).2 ⟨(regular_attr _ _).2 (regular_int _), ?_⟩
  refine (regular_flatten_cons _ _).2 ⟨(regular_attr _ _).2 (regular_enum _ _), ?_⟩
  refine (regular_flatten_cons _ _).2 ⟨(regular_attr _ _).2 (regular_enum _ _), ?_⟩
  refine (regular_flatten_cons _ _).2 ⟨(regular_attr _ _).2 (regular_int _), ?_⟩
  refine (regular_flatten_cons _ _).2 ⟨(regular_attr _ _).2 (regular_int _), ?_⟩
  refine (regular_flatten_cons _ _).2 ⟨(regular_attr _ _).2 (regular_int _), ?_⟩
  refine (regular_flatten_cons _ _).2 ⟨(regular_attr _ _).2 (regular_int _), ?_⟩
  refine (regular_flatten_cons _ _).2 ⟨(regular_attr _ _).2 (regular_int _), ?_⟩
  refine (regular_flatten_cons _ _).2 ⟨(regular_attr _ _).2 (regular_int _), ?_⟩
  refine (regular_flatten_cons _ _).2 ⟨(regular_attr _ _).2 (regular_bytes _), ?_⟩
  simp [regularInValues]

theorem DmrDataHeader.DataHeaderResponse.toPy_regular (x : DmrDataHeader.DataHeaderResponse) : regular x.toPy := by
  refine (regular_object _ _).2 ?_
  refine (regular_flatten_cons _ _).2 ⟨(regular_attr _ _).2 (regular_bool _), ?_⟩
  refine (regular_flatten_cons _ _).2 ⟨(regular_attr _ _).2 (regular_bool _), ?_⟩
  refine (regular_flatten_cons _ _).2 ⟨(regular_attr _ _).2 (regular_int _), ?_⟩
  refine (regular_flatten_cons _ _).2 ⟨(regular_attr _ _).2 (regular_enum _ _), ?_⟩
  refine (regular_flatten_cons _ _).2 ⟨(regular_attr _ _).2 (regular_enum _ _), ?_⟩
  refine (regular_flatten_cons _ _).2 ⟨(regular_attr _ _).2 (regular_int _), ?_⟩
  refine (regular_flatten_cons _ _).2 ⟨(regular_attr _ _).2 (regular_int _), ?_⟩
  refine (regular_flatten_cons _ _).2 ⟨(regular_attr _ _).2 (regular_int _), ?_⟩
  refine (regular_flatten_cons _ _).2 ⟨(regular_attr _ _).2 (regular_bool _), ?_⟩
  refine (regular_flatten_cons _ _).2 ⟨(regular_attr _ _).2 (regular_int _), ?_⟩
  refine (regular_flatten_cons _ _).2 ⟨(regular_attr _ _).2 (regular_enum _ _), ?_⟩
  refine (regular_flatten_cons _ _).2 ⟨(regular_attr _ _).2 (regular_int _), ?_⟩
  refine (regular_flatten_cons _ _).2 ⟨(regular_attr _ _).2 (regular_int _), ?_⟩
  refine (regular_flatten_cons _ _).2 ⟨(regular_attr _ _).2 (regular_bytes _), ?_⟩
  simp [regularInValues]

theorem DmrDataHeader.DataHeaderConfirmed.toPy_regular (x : DmrDataHeader.DataHeaderConfirmed) : regular x.toPy := by
  refine (regular_object _ _).2 ?_
  refine (regular_flatten_cons _ _).2 ⟨(regular_attr _ _).2 (regular_bool _), ?_⟩
  refine (regular_flatten_cons _ _).2 ⟨(regular_attr _ _).2 (regular_bool _), ?_⟩
  refine (regular_flatten_cons _ _).2 ⟨(regular_attr _ _).2 (regular_bool _), ?_⟩
  refine (regular_flatten_cons _ _).2 ⟨(regular_attr _ _).2 (regular_bool _), ?_⟩
  refine (regular_flatten_cons _ _).2 ⟨(regular_attr _ _).2 (regular_enum _ _), ?_⟩
  refine (regular_flatten_cons _ _).2 ⟨(regular_attr _ _).2 (regular_enum _ _), ?_⟩
  refine (regular_flatten_cons _ _).2 ⟨(regular_attr _ _).2 (regular_int _), ?_⟩
  refine (regular_flatten_cons _ _).2 ⟨(regular_attr _ _).2 (regular_int _), ?_⟩
  refine (regular_flatten_cons _ _).2 ⟨(regular_attr _ _).2 (regular_int _), ?_⟩
  refine (regular_flatten_cons _ _).2 ⟨(regular_attr _ _).2 (regular_bool _), ?_⟩
  refine (regular_flatten_cons _ _).2 ⟨(regular_attr _ _).2 (regular_int _), ?_⟩
  refine (regular_flatten_cons _ _).2 ⟨(regular_attr _ _).2 (regular_bool _), ?_⟩
  refine (regular_flatten_cons _ _).2 ⟨(regular_attr _ _).2 (regular_int _), ?_⟩
  refine (regular_flatten_cons _ _).2 ⟨(regular_attr _ _).2 (regular_int _), ?_⟩
  refine (regular_flatten_cons _ _).2 ⟨(regular_attr _ _).2 (regular_bytes _), ?_⟩
  simp [regularInValues]

theorem DmrDataHeader.DataHeaderUnconfirmed.toPy_regular (x : DmrDataHeader.DataHeaderUnconfirmed) : regular x.toPy := by
  refine (regular_object _ _).2 ?_
  refine (regular_flatten_cons _ _).2 ⟨(regular_attr _ _).2 (regular_bool _), ?_⟩
  refine (regular_flatten_cons _ _).2 ⟨(regular_attr _ _).2 (regular_bool _), ?_⟩
  refine (regular_flatten_cons _ _).2 ⟨(regular_attr _ _).2 (regular_bool _), ?_⟩
  refine (regular_flatten_cons _ _).2 ⟨(regular_attr _ _).2 (regular_bool _), ?_⟩
  refine (regular_flatten_cons _ _).2 ⟨(regular_attr _ _).2 (regular_enum _ _), ?_⟩
  refine (regular_flatten_cons _ _).2 ⟨(regular_attr _ _).2 (regular_enum _ _), ?_⟩
  refine (regular_flatten_cons _ _).2 ⟨(regular_attr _ _).2 (regular_int _), ?_⟩
  refine (regular_flatten_cons _ _).2 ⟨(regular_attr _ _).2 (regular_int _), ?_⟩
  refine (regular_flatten_cons _ _).2 ⟨(regular_attr _ _).2 (regular_int _), ?_⟩
  refine (regular_flatten_cons _ _).2 ⟨(regular_attr _ _).2 (regular_bool _), ?_⟩
  refine (regular_flatten_cons _ _).2 ⟨(regular_attr _ _).2 (regular_int _), ?_⟩
  refine (regular_flatten_cons _ _).2 ⟨(regular_attr _ _).2 (regular_int _), ?_⟩
  refine (regular_flatten_cons _ _).2 ⟨(regular_attr _ _).2 (regular_int _), ?_⟩
  refine (regular_flatten_cons _ _).2 ⟨(regular_attr _ _).2 (regular_bytes _), ?_⟩
  simp [regularInValues]

theorem DmrDataHeader.DataHeaderShortDefined.toPy_regular (x : DmrDataHeader.DataHeaderShortDefined) : regular x.toPy := by
  refine (regular_object _ _).2 ?_
  refine (regular_flatten_cons _ _).2 ⟨(regular_attr _ _).2 (regular_bool _), ?_⟩
  refine (regular_flatten_cons _ _).2 ⟨(regular_attr _ _).2 (regular_bool _), ?_⟩
  refine (regular_flatten_cons _ _).2 ⟨(regular_attr _ _).2 (regular_int _), ?_⟩
  refine (regular_flatten_cons _ _).2 ⟨(regular_attr _ _).2 (regular_enum _ _), ?_⟩
  refine (regular_flatten_cons _ _).2 ⟨(regular_attr _ _).2 (regular_enum _ _), ?_⟩
  refine (regular_flatten_cons _ _).2 ⟨(regular_attr _ _).2 (regular_int _), ?_⟩
  refine (regular_flatten_cons _ _).2 ⟨(regular_attr _ _).2 (regular_int _), ?_⟩
  refine (regular_flatten_cons _ _).2 ⟨(regular_attr _ _).2 (regular_int _), ?_⟩
  refine (regular_flatten_cons _ _).2 ⟨(regular_attr _ _).2 (regular_enum _ _), ?_⟩
  refine (regular_flatten_cons _ _).2 ⟨(regular_attr _ _).2 (regular_bool _), ?_⟩
  refine (regular_flatten_cons _ _).2 ⟨(regular_attr _ _).2 (regular_bool _), ?_⟩
  refine (regular_flatten_cons _ _).2 ⟨(regular_attr _ _).2 (regular_int _), ?_⟩
  refine (regular_flatten_cons _ _).2 ⟨(regular_attr _ _).2 (regular_bytes _), ?_⟩
  simp [regularInValues]

theorem DmrDataHeader.DataHeaderUdt.toPy_regular (x : DmrDataHeader.DataHeaderUdt) : regular x.toPy := by
  refine (regular_object _ _).2 ?_
  refine (regular_flatten_cons _ _).2 ⟨(regular_attr _ _).2 (regular_bool _), ?_⟩
  refine (regular_flatten_cons _ _).2 ⟨(regular_attr _ _).2 (regular_bool _), ?_⟩
  refine (regular_flatten_cons _ _).2 ⟨(regular_attr _ _).2 (regular_int _), ?_⟩
  refine (regular_flatten_cons _ _).2 ⟨(regular_attr _ _).2 (regular_enum _ _), ?_⟩
  refine (regular_flatten_cons _ _).2 ⟨(regular_attr _ _).2 (regular_enum _ _), ?_⟩
  refine (regular_flatten_cons _ _).2 ⟨(regular_attr _ _).2 (regular_enum _ _), ?_⟩
  refine (regular_flatten_cons _ _).2 ⟨(regular_attr _ _).2 (regular_int _), ?_⟩
  refine (regular_flatten_cons _ _).2 ⟨(regular_attr _ _).2 (regular_int _), ?_⟩
  refine (regular_flatten_cons _ _).2 ⟨(regular_attr _ _).2 (regular_int _), ?_⟩
  refine (regular_flatten_cons _ _).2 ⟨(regular_attr _ _).2 (regular_bool _), ?_⟩
  refine (regular_flatten_cons _ _).2 ⟨(regular_attr _ _).2 (regular_int _), ?_⟩
  refine (regular_flatten_cons _ _).2 ⟨(regular_attr _ _).2 (regular_bool _), ?_⟩
  refine (regular_flatten_cons _ _).2 ⟨(regular_attr _ _).2 (regular_bool _), ?_⟩
  refine (regular_flatten_cons _ _).2 ⟨(regular_attr _ _).2 (regular_enum _ _), ?_⟩
  refine (regular_flatten_cons _ _).2 ⟨(regular_attr _ _).2 (regular_bytes _), ?_⟩
  simp [regularInValues]

theorem DmrDataHeader.toPy_regular (x : DmrDataHeader) : regular x.toPy := by
  refine (regular_object _ _).2 ?_
  refine (regular_flatten_cons _ _).2 ⟨(regular_attr _ _).2 (regular_int _), ?_⟩
  refine (regular_flatten_cons _ _).2 ⟨(regular_attr _ _).2 (regular_enum _ _), ?_⟩
  simp [regularInValues]

theorem DmrDataHeader.DataUnion.toPy_regular (x : DmrDataHeader.DataUnion) : regular x.toPy := by
  cases x with
  | dataHeaderProprietary x => exact DmrDataHeader.DataHeaderProprietary.toPy_regular x
  | dataHeaderShortDefined x => exact DmrDataHeader.DataHeaderShortDefined.toPy_regular x
  | dataHeaderUnconfirmed x => exact DmrDataHeader.DataHeaderUnconfirmed.toPy_regular x
  | dataHeaderConfirmed x => exact DmrDataHeader.DataHeaderConfirmed.toPy_regular x
  | dataHeaderUdt x => exact DmrDataHeader.DataHeaderUdt.toPy_regular x
  | dataHeaderShortStatusPrecoded x => exact DmrDataHeader.DataHeaderShortStatusPrecoded.toPy_regular x
  | dataHeaderResponse x => exact DmrDataHeader.DataHeaderResponse.toPy_regular x
  | dataHeaderUndefined x => exact DmrDataHeader.DataHeaderUndefined.toPy_regular x

theorem DmrIpUdp.UdpIpv4CompressedHeader.toPy_regular (x : DmrIpUdp.UdpIpv4CompressedHeader) : regular x.toPy := by
  refine (regular_object _ _).2 ?_
  refine (regular_flatten_cons _ _).2 ⟨(regular_attr _ _).2 (regular_bytes _), ?_⟩
  refine (regular_flatten_cons _ _).2 ⟨(regular_attr _ _).2 (regular_enum _ _), ?_⟩
  refine (regular_flatten_cons _ _).2 ⟨(regular_attr _ _).2 (regular_enum _ _), ?_⟩
  refine (regular_flatten_cons _ _).2 ⟨(regular_attr _ _).2 (regular_bool _), ?_⟩
  refine (regular_flatten_cons _ _).2 ⟨(regular_attr _ _).2 (regular_enum _ _), ?_⟩
  refine (regular_flatten_cons _ _).2 ⟨(regular_attr _ _).2 (regular_bool _), ?_⟩
  refine (regular_flatten_cons _ _).2 ⟨(regular_attr _ _).2 (regular_enum _ _), ?_⟩
  refine (regular_flatten_cons _ _).2 ⟨regular_optAttr _ _ _ fun y => regular_bytes _, ?_⟩
  refine (regular_flatten_cons _ _).2 ⟨regular_optAttr _ _ _ fun y => regular_bytes _, ?_⟩
  refine (regular_flatten_cons _ _).2 ⟨(regular_attr _ _).2 (regular_bytes _), ?_⟩
  simp [regularInValues]

theorem DmrIpUdp.toPy_regular (x : DmrIpUdp) : regular x.toPy := by
  refine (regular_object _ _).2 ?_
  simp [regularInValues]

theorem FullLinkControl.GpsInfoLcPdu.toPy_regular (x : FullLinkControl.GpsInfoLcPdu) : regular x.toPy := by
  refine (regular_object _ _).2 ?_
  refine (regular_flatten_cons _ _).2 ⟨(regular_attr _ _).2 (regular_int _), ?_⟩
  refine (regular_flatten_cons _ _).2 ⟨(regular_attr _ _).2 (regular_enum _ _), ?_⟩
  refine (regular_flatten_cons _ _).2 ⟨(regular_attr _ _).2 (regular_int _), ?_⟩
  refine (regular_flatten_cons _ _).2 ⟨(regular_attr _ _).2 (regular_int _), ?_⟩
  simp [regularInValues]

theorem FullLinkControl.GroupVoiceChannelUser.toPy_regular (x : FullLinkControl.GroupVoiceChannelUser) : regular x.toPy := by
  refine (regular_object _ _).2 ?_
  refine (regular_flatten_cons _ _).2 ⟨(regular_attr _ _).2 (regular_int _), ?_⟩
  refine (regular_flatten_cons _ _).2 ⟨(regular_attr _ _).2 (regular_int _), ?_⟩
  refine (regular_flatten_cons _ _).2 ⟨(regular_attr _ _).2 (regular_int _), ?_⟩
  simp [regularInValues]

theorem FullLinkControl.UnitToUnitVoiceChannelUser.toPy_regular (x : FullLinkControl.UnitToUnitVoiceChannelUser) : regular x.toPy := by
  refine (regular_object _ _).2 ?_
  refine (regular_flatten_cons _ _).2 ⟨(regular_attr _ _).2 (regular_int _), ?_⟩
  refine (regular_flatten_cons _ _).2 ⟨(regular_attr _ _).2 (regular_int _), ?_⟩
  refine (regular_flatten_cons _ _).2 ⟨(regular_attr _ _).2 (regular_int _), ?_⟩
  simp [regularInValues]

theorem FullLinkControl.TalkerAliasHeader.toPy_regular (x : FullLinkControl.TalkerAliasHeader) : regular x.toPy := by
  refine (regular_object _ _).2 ?_
  refine (regular_flatten_cons _ _).2 ⟨(regular_attr _ _).2 (regular_enum _ _), ?_⟩
  refine (regular_flatten_cons _ _).2 ⟨(regular_attr _ _).2 (regular_int _), ?_⟩
  refine (regular_flatten_cons _ _).2 ⟨(regular_attr _ _).2 (regular_int _), ?_⟩
  simp [regularInValues]

theorem FullLinkControl.TalkerAliasContinuation.toPy_regular (x : FullLinkControl.TalkerAliasContinuation) : regular x.toPy := by
  refine (regular_object _ _).2 ?_
  refine (regular_flatten_cons _ _).2 ⟨(regular_attr _ _).2 (regular_int _), ?_⟩
  simp [regularInValues]

theorem FullLinkControl.SpecificDataUnion.toPy_regular (x : FullLinkControl.SpecificDataUnion) : regular x.toPy := by
  cases x with
  | talkerAliasHeader x => exact FullLinkControl.TalkerAliasHeader.toPy_regular x
  | unitToUnitVoiceChannelUser x => exact FullLinkControl.UnitToUnitVoiceChannelUser.toPy_regular x
  | groupVoiceChannelUser x => exact FullLinkControl.GroupVoiceChannelUser.toPy_regular x
  | talkerAliasContinuation x => exact FullLinkControl.TalkerAliasContinuation.toPy_regular x
  | gpsInfoLcPdu x => exact FullLinkControl.GpsInfoLcPdu.toPy_regular x

theorem FullLinkControl.toPy_regular (x : FullLinkControl) : regular x.toPy := by
  refine (regular_object _ _).2 ?_
  refine (regular_flatten_cons _ _).2 ⟨(regular_attr _ _).2 (regular_bool _), ?_⟩
  refine (regular_flatten_cons _ _).2 ⟨(regular_attr _ _).2 (regular_bool _), ?_⟩
  refine (regular_flatten_cons _ _).2 ⟨(regular_attr _ _).2 (regular_enum _ _), ?_⟩
  refine (regular_flatten_cons _ _).2 ⟨(regular_attr _ _).2 (regular_enum _ _), ?_⟩
  refine (regular_flatten_cons _ _).2 ⟨regular_optAttr _ _ _ fun y => FullLinkControl.SpecificDataUnion.toPy_regular y, ?_⟩
  refine (regular_flatten_cons _ _).2 ⟨regular_optAttr _ _ _ fun y => regular_bytes _, ?_⟩
  refine (regular_flatten_cons _ _).2 ⟨regular_optAttr _ _ _ fun y => regular_int _, ?_⟩
  simp [regularInValues]

end Dmr.Etsi

namespace Dmr.Homebrew

theorem Homebrew2015.TypeMasterPing.toPy_regular (x : Homebrew2015.TypeMasterPing) : regular x.toPy := by
  refine (regular_object _ _).2 ?_
  refine (regular_flatten_cons _ _).2 ⟨(regular_attr _ _).2 (regular_bytes _), ?_⟩
  refine (regular_flatten_cons _ _).2 ⟨(regular_attr _ _).2 (regular_int _), ?_⟩
  simp [regularInValues]

theorem Homebrew2015.TypeRepeaterPong.toPy_regular (x : Homebrew2015.TypeRepeaterPong) : regular x.toPy := by
  refine (regular_object _ _).2 ?_
  refine (regular_flatten_cons _ _).2 ⟨(regular_attr _ _).2 (regular_bytes _), ?_⟩
  refine (regular_flatten_cons _ _).2 ⟨(regular_attr _ _).2 (regular_int _), ?_⟩
  simp [regularInValues]

theorem Homebrew2015.TypeRepeaterClosing.toPy_regular (x : Homebrew2015.TypeRepeaterClosing) : regular x.toPy := by
  refine (regular_object _ _).2 ?_
  refine (regular_flatten_cons _ _).2 ⟨(regular_attr _ _).2 (regular_bytes _), ?_⟩
  refine (regular_flatten_cons _ _).2 ⟨(regular_attr _ _).2 (regular_int _), ?_⟩
  simp [regularInValues]

theorem Homebrew2015.TypeRepeaterConfiguration.toPy_regular (x : Homebrew2015.TypeRepeaterConfiguration) : regular x.toPy := by
  refine (regular_object _ _).2 ?_
  refine (regular_flatten_cons _ _).2 ⟨(regular_attr _ _).2 (regular_int _), ?_⟩
  refine (regular_flatten_cons _ _).2 ⟨(regular_attr _ _).2 (regular_str _), ?_⟩
  refine (regular_flatten_cons _ _).2 ⟨(regular_attr _ _).2 (regular_str _), ?_⟩
  refine (regular_flatten_cons _ _).2 ⟨(regular_attr _ _).2 (regular_str _), ?_⟩
  refine (regular_flatten_cons _ _).2 ⟨(regular_attr _ _).2 (regular_str _), ?_⟩
  refine (regular_flatten_cons _ _).2 ⟨(regular_attr _ _).2 (regular_str _), ?_⟩
  refine (regular_flatten_cons _ _).2 ⟨(regular_attr _ _).2 (regular_str _), ?_⟩
  refine (regular_flatten_cons _ _).2 ⟨(regular_attr _ _).2 (regular_str _), ?_⟩
  refine (regular_flatten_cons _ _).2 ⟨(regular_attr _ _).2 (regular_str _), ?_⟩
  refine (regular_flatten_cons _ _).2 ⟨(regular_attr _ _).2 (regular_str _), ?_⟩
  refine (regular_flatten_cons _ _).2 ⟨(regular_attr _ _).2 (regular_str _), ?_⟩
  refine (regular_flatten_cons _ _).2 ⟨(regular_attr _ _).2 (regular_str _), ?_⟩
  refine (regular_flatten_cons _ _).2 ⟨(regular_attr _ _).2 (regular_str _), ?_⟩
  refine (regular_flatten_cons _ _).2 ⟨(regular_attr _ _).2 (regular_str _), ?_⟩
  refine (regular_flatten_cons _ _).2 ⟨(regular_attr _ _).2 (regular_str _), ?_⟩
  simp [regularInValues]

theorem Homebrew2015.TypeRepeaterConfigurationOrClosing.DataUnion.toPy_regular (x : Homebrew2015.TypeRepeaterConfigurationOrClosing.DataUnion) : regular x.toPy := by
  cases x with
  | typeRepeaterClosing x => exact Homebrew2015.TypeRepeaterClosing.toPy_regular x
  | typeRepeaterConfiguration x => exact Homebrew2015.TypeRepeaterConfiguration.toPy_regular x

theorem Homebrew2015.TypeRepeaterConfigurationOrClosing.toPy_regular (x : Homebrew2015.TypeRepeaterConfigurationOrClosing) : regular x.toPy := by
  refine (regular_object _ _).2 ?_
  refine (regular_flatten_cons _ _).2 ⟨(regular_attr _ _).2 (Homebrew2015.TypeRepeaterConfigurationOrClosing.DataUnion.toPy_regular x.data), ?_⟩
  simp [regularInValues]

theorem Homebrew2015.TypeRepeaterLoginResponse.toPy_regular (x : Homebrew2015.TypeRepeaterLoginResponse) : regular x.toPy := by
  refine (regular_object _ _).2 ?_
  refine (regular_flatten_cons _ _).2 ⟨(regular_attr _ _).2 (regular_int _), ?_⟩
  refine (regular_flatten_cons _ _).2 ⟨(regular_attr _ _).2 (regular_bytes _), ?_⟩
  simp [regularInValues]

theorem Homebrew2015.TypeRepeaterLoginRequest.toPy_regular (x : Homebrew2015.TypeRepeaterLoginRequest) : regular x.toPy := by
  refine (regular_object _ _).2 ?_
  refine (regular_flatten_cons _ _).2 ⟨(regular_attr _ _).2 (regular_int _), ?_⟩
  simp [regularInValues]

theorem Homebrew2015.TypeMasterNotAccept.toPy_regular (x : Homebrew2015.TypeMasterNotAccept) : regular x.toPy := by
  refine (regular_object _ _).2 ?_
  refine (regular_flatten_cons _ _).2 ⟨(regular_attr _ _).2 (regular_bytes _), ?_⟩
  refine (regular_flatten_cons _ _).2 ⟨(regular_attr _ _).2 (regular_int _), ?_⟩
  simp [regularInValues]

theorem Homebrew2015.TypeMasterRepeaterAck.toPy_regular (x : Homebrew2015.TypeMasterRepeaterAck) : regular x.toPy := by
  refine (regular_object _ _).2 ?_
  refine (regular_flatten_cons _ _).2 ⟨(regular_attr _ _).2 (regular_bytes _), ?_⟩
  refine (regular_flatten_cons _ _).2 ⟨(regular_attr _ _).2 (regular_int _), ?_⟩
  refine (regular_flatten_cons _ _).2 ⟨regular_optAttr _ _ _ fun y => regular_int _, ?_⟩
  simp [regularInValues]

theorem Homebrew2015.TypeMasterClosing.toPy_regular (x : Homebrew2015.TypeMasterClosing) : regular x.toPy := by
  refine (regular_object _ _).2 ?_
  refine (regular_flatten_cons _ _).2 ⟨(regular_attr _ _).2 (regular_bytes _), ?_⟩
  refine (regular_flatten_cons _ _).2 ⟨(regular_attr _ _).2 (regular_int _), ?_⟩
  simp [regularInValues]

theorem Homebrew2015.TypeDmrData.toPy_regular (x : Homebrew2015.TypeDmrData) : regular x.toPy := by
  refine (regular_object _ _).2 ?_
  refine (regular_flatten_cons _ _).2 ⟨(regular_attr _ _).2 (regular_int _), ?_⟩
  refine (regular_flatten_cons _ _).2 ⟨(regular_attr _ _).2 (regular_int _), ?_⟩
  refine (regular_flatten_cons _ _).2 ⟨(regular_attr _ _).2 (regular_int _), ?_⟩
  refine (regular_flatten_cons _ _).2 ⟨(regular_attr _ _).2 (regular_int _), ?_⟩
  refine (regular_flatten_cons _ _).2 ⟨(regular_attr _ _).2 (regular_enum _ _), ?_⟩
  refine (regular_flatten_cons _ _).2 ⟨(regular_attr _ _).2 (regular_enum _ _), ?_⟩
  refine (regular_flatten_cons _ _).2 ⟨(regular_attr _ _).2 (regular_enum _ _), ?_⟩
  refine (regular_flatten_cons _ _).2 ⟨(regular_attr _ _).2 (regular_int _), ?_⟩
  refine (regular_flatten_cons _ _).2 ⟨(regular_attr _ _).2 (regular_int _), ?_⟩
  refine (regular_flatten_cons _ _).2 ⟨(regular_attr _ _).2 (regular_bytes _), ?_⟩
  refine (regular_flatten_cons _ _).2 ⟨regular_optAttr _ _ _ fun y => regular_int _, ?_⟩
  refine (regular_flatten_cons _ _).2 ⟨regular_optAttr _ _ _ fun y => regular_int _, ?_⟩
  simp [regularInValues]

theorem Homebrew2015.TypeRepeaterOptions.toPy_regular (x : Homebrew2015.TypeRepeaterOptions) : regular x.toPy := by
  refine (regular_object _ _).2 ?_
  refine (regular_flatten_cons _ _).2 ⟨(regular_attr _ _).2 (regular_int _), ?_⟩
  refine (regular_flatten_cons _ _).2 ⟨(regular_attr _ _).2 (regular_str _), ?_⟩
  simp [regularInValues]

theorem Homebrew2015.CommandDataUnion.toPy_regular (x : Homebrew2015.CommandDataUnion) : regular x.toPy := by
  cases x with
  | typeRepeaterLoginRequest x => exact Homebrew2015.TypeRepeaterLoginRequest.toPy_regular x
  | typeMasterRepeaterAck x => exact Homebrew2015.TypeMasterRepeaterAck.toPy_regular x
  | typeRepeaterLoginResponse x => exact Homebrew2015.TypeRepeaterLoginResponse.toPy_regular x
  | typeRepeaterConfigurationOrClosing x => exact Homebrew2015.TypeRepeaterConfigurationOrClosing.toPy_regular x
  | typeDmrData x => exact Homebrew2015.TypeDmrData.toPy_regular x
  | typeMasterClosing x => exact Homebrew2015.TypeMasterClosing.toPy_regular x
  | typeRepeaterPong x => exact Homebrew2015.TypeRepeaterPong.toPy_regular x
  | typeMasterPing x => exact Homebrew2015.TypeMasterPing.toPy_regular x
  | typeMasterNotAccept x => exact Homebrew2015.TypeMasterNotAccept.toPy_regular x

theorem Homebrew2015.fifthLetter_regular (o : Option Homebrew2015.CommandDataUnion) (v : PyVal)
    (h : o.bind Homebrew2015.CommandDataUnion.fifthLetter = some v) : regular v := by
  cases o with
  | none => cases h
  | some u =>
    simp only [Option.bind_some] at h
    unfold Homebrew2015.CommandDataUnion.fifthLetter at h
    split at h <;> first | (cases h; exact regular_str _) | cases h

theorem Homebrew2015.toPy_regular (x : Homebrew2015) : regular x.toPy := by
  refine (regular_object _ _).2 ?_
  refine (regular_flatten_cons _ _).2 ⟨(regular_attr _ _).2 (regular_str _), ?_⟩
  refine (regular_flatten_cons _ _).2 ⟨regular_optAttr' _ _ fun v hv => Homebrew2015.fifthLetter_regular x.command_data v hv, ?_⟩
  refine (regular_flatten_cons _ _).2 ⟨regular_optAttr _ _ _ fun y => Homebrew2015.CommandDataUnion.toPy_regular y, ?_⟩
  simp [regularInValues]

theorem Mmdvm2020.TypeMasterPong.toPy_regular (x : Mmdvm2020.TypeMasterPong) : regular x.toPy := by
  refine (regular_object _ _).2 ?_
  refine (regular_flatten_cons _ _).2 ⟨(regular_attr _ _).2 (regular_bytes _), ?_⟩
  refine (regular_flatten_cons _ _).2 ⟨(regular_attr _ _).2 (regular_int _), ?_⟩
  simp [regularInValues]

theorem Mmdvm2020.TypeRadioPosition.toPy_regular (x : Mmdvm2020.TypeRadioPosition) : regular x.toPy := by
  refine (regular_object _ _).2 ?_
  refine (regular_flatten_cons _ _).2 ⟨(regular_attr _ _).2 (regular_int _), ?_⟩
  refine (regular_flatten_cons _ _).2 ⟨(regular_attr _ _).2 (regular_int _), ?_⟩
  refine (regular_flatten_cons _ _).2 ⟨(regular_attr _ _).2 (regular_enum _ _), ?_⟩
  refine (regular_flatten_cons _ _).2 ⟨(regular_attr _ _).2 (regular_int _), ?_⟩
  refine (regular_flatten_cons _ _).2 ⟨(regular_attr _ _).2 (regular_int _), ?_⟩
  simp [regularInValues]

theorem Mmdvm2020.TypeTalkerAlias.toPy_regular (x : Mmdvm2020.TypeTalkerAlias) : regular x.toPy := by
  refine (regular_object _ _).2 ?_
  refine (regular_flatten_cons _ _).2 ⟨(regular_attr _ _).2 (regular_int _), ?_⟩
  refine (regular_flatten_cons _ _).2 ⟨(regular_attr _ _).2 (regular_enum _ _), ?_⟩
  refine (regular_flatten_cons _ _).2 ⟨(regular_attr _ _).2 (regular_str _), ?_⟩
  simp [regularInValues]

theorem Mmdvm2020.TypeRepeaterClosing.toPy_regular (x : Mmdvm2020.TypeRepeaterClosing) : regular x.toPy := by
  refine (regular_object _ _).2 ?_
  refine (regular_flatten_cons _ _).2 ⟨(regular_attr _ _).2 (regular_bytes _), ?_⟩
  refine (regular_flatten_cons _ _).2 ⟨(regular_attr _ _).2 (regular_int _), ?_⟩
  simp [regularInValues]

theorem Mmdvm2020.TypeRepeaterConfiguration.toPy_regular (x : Mmdvm2020.TypeRepeaterConfiguration) : regular x.toPy := by
  refine (regular_object _ _).2 ?_
  refine (regular_flatten_cons _ _).2 ⟨(regular_attr _ _).2 (regular_int _), ?_⟩
  refine (regular_flatten_cons _ _).2 ⟨(regular_attr _ _).2 (regular_str _), ?_⟩
  refine (regular_flatten_cons _ _).2 ⟨(regular_attr _ _).2 (regular_str _), ?_⟩
  refine (regular_flatten_cons _ _).2 ⟨(regular_attr _ _).2 (regular_str _), ?_⟩
  refine (regular_flatten_cons _ _).2 ⟨(regular_attr _ _).2 (regular_str _), ?_⟩
  refine (regular_flatten_cons _ _).2 ⟨(regular_attr _ _).2 (regular_str _), ?_⟩
  refine (regular_flatten_cons _ _).2 ⟨(regular_attr _ _).2 (regular_str _), ?_⟩
  refine (regular_flatten_cons _ _).2 ⟨(regular_attr _ _).2 (regular_str _), ?_⟩
  refine (regular_flatten_cons _ _).2 ⟨(regular_attr _ _).2 (regular_str _), ?_⟩
  refine (regular_flatten_cons _ _).2 ⟨(regular_attr _ _).2 (regular_str _), ?_⟩
  refine (regular_flatten_cons _ _).2 ⟨(regular_attr _ _).2 (regular_str _), ?_⟩
  refine (regular_flatten_cons _ _).2 ⟨(regular_attr _ _).2 (regular_str _), ?_⟩
  refine (regular_flatten_cons _ _).2 ⟨(regular_attr _ _).2 (regular_str _), ?_⟩
  refine (regular_flatten_cons _ _).2 ⟨(regular_attr _ _).2 (regular_str _), ?_⟩
  refine (regular_flatten_cons _ _).2 ⟨(regular_attr _ _).2 (regular_str _), ?_⟩
  refine (regular_flatten_cons _ _).2 ⟨(regular_attr _ _).2 (regular_str _), ?_⟩
  simp [regularInValues]

theorem Mmdvm2020.TypeRepeaterConfigurationOrClosing.DataUnion.toPy_regular (x : Mmdvm2020.TypeRepeaterConfigurationOrClosing.DataUnion) : regular x.toPy := by
  cases x with
  | typeRepeaterClosing x => exact Mmdvm2020.TypeRepeaterClosing.toPy_regular x
  | typeRepeaterConfiguration x => exact Mmdvm2020.TypeRepeaterConfiguration.toPy_regular x

theorem Mmdvm2020.TypeRepeaterConfigurationOrClosing.toPy_regular (x : Mmdvm2020.TypeRepeaterConfigurationOrClosing) : regular x.toPy := by
  refine (regular_object _ _).2 ?_
  refine (regular_flatten_cons _ _).2 ⟨(regular_attr _ _).2 (Mmdvm2020.TypeRepeaterConfigurationOrClosing.DataUnion.toPy_regular x.data), ?_⟩
  simp [regularInValues]

theorem Mmdvm2020.TypeRepeaterLoginResponse.toPy_regular (x : Mmdvm2020.TypeRepeaterLoginResponse) : regular x.toPy := by
  refine (regular_object _ _).2 ?_
  refine (regular_flatten_cons _ _).2 ⟨(regular_attr _ _).2 (regular_int _), ?_⟩
  refine (regular_flatten_cons _ _).2 ⟨(regular_attr _ _).2 (regular_bytes _), ?_⟩
  simp [regularInValues]

theorem Mmdvm2020.TypeRepeaterLoginRequest.toPy_regular (x : Mmdvm2020.TypeRepeaterLoginRequest) : regular x.toPy := by
  refine (regular_object _ _).2 ?_
  refine (regular_flatten_cons _ _).2 ⟨(regular_attr _ _).2 (regular_int _), ?_⟩
  simp [regularInValues]

theorem Mmdvm2020.TypeMasterNotAccept.toPy_regular (x : Mmdvm2020.TypeMasterNotAccept) : regular x.toPy := by
  refine (regular_object _ _).2 ?_
  refine (regular_flatten_cons _ _).2 ⟨(regular_attr _ _).2 (regular_bytes _), ?_⟩
  refine (regular_flatten_cons _ _).2 ⟨(regular_attr _ _).2 (regular_int _), ?_⟩
  simp [regularInValues]

theorem Mmdvm2020.TypeUnknown.toPy_regular (x : Mmdvm2020.TypeUnknown) : regular x.toPy := by
  refine (regular_object _ _).2 ?_
  refine (regular_flatten_cons _ _).2 ⟨(regular_attr _ _).2 (regular_bytes _), ?_⟩
  simp [regularInValues]

theorem Mmdvm2020.TypeMasterRepeaterAck.toPy_regular (x : Mmdvm2020.TypeMasterRepeaterAck) : regular x.toPy := by
  refine (regular_object _ _).2 ?_
  refine (regular_flatten_cons _ _).2 ⟨(regular_attr _ _).2 (regular_bytes _), ?_⟩
  refine (regular_flatten_cons _ _).2 ⟨(regular_attr _ _).2 (regular_int _), ?_⟩
  simp [regularInValues]

theorem Mmdvm2020.TypeMasterClosing.toPy_regular (x : Mmdvm2020.TypeMasterClosing) : regular x.toPy := by
  refine (regular_object _ _).2 ?_
  refine (regular_flatten_cons _ _).2 ⟨(regular_attr _ _).2 (regular_bytes _), ?_⟩
  refine (regular_flatten_cons _ _).2 ⟨(regular_attr _ _).2 (regular_int _), ?_⟩
  simp [regularInValues]

theorem Mmdvm2020.TypeDmrData.toPy_regular (x : Mmdvm2020.TypeDmrData) : regular x.toPy := by
  refine (regular_object _ _).2 ?_
  refine (regular_flatten_cons _ _).2 ⟨(regular_attr _ _).2 (regular_int _), ?_⟩
  refine (regular_flatten_cons _ _).2 ⟨(regular_attr _ _).2 (regular_int _), ?_⟩
  refine (regular_flatten_cons _ _).2 ⟨(regular_attr _ _).2 (regular_int _), ?_⟩
  refine (regular_flatten_cons _ _).2 ⟨(regular_attr _ _).2 (regular_int _), ?_⟩
  refine (regular_flatten_cons _ _).2 ⟨(regular_attr _ _).2 (regular_enum _ _), ?_⟩
  refine (regular_flatten_cons _ _).2 ⟨(regular_attr _ _).2 (regular_enum _ _), ?_⟩
  refine (regular_flatten_cons _ _).2 ⟨(regular_attr _ _).2 (regular_enum _ _), ?_⟩
  refine (regular_flatten_cons _ _).2 ⟨(regular_attr _ _).2 (regular_int _), ?_⟩
  refine (regular_flatten_cons _ _).2 ⟨(regular_attr _ _).2 (regular_int _), ?_⟩
  refine (regular_flatten_cons _ _).2 ⟨(regular_attr _ _).2 (regular_bytes _), ?_⟩
  refine (regular_flatten_cons _ _).2 ⟨regular_optAttr _ _ _ fun y => regular_int _, ?_⟩
  refine (regular_flatten_cons _ _).2 ⟨regular_optAttr _ _ _ fun y => regular_int _, ?_⟩
  simp [regularInValues]

theorem Mmdvm2020.TypeRepeaterBeacon.toPy_regular (x : Mmdvm2020.TypeRepeaterBeacon) : regular x.toPy := by
  refine (regular_object _ _).2 ?_
  simp [regularInValues]

theorem Mmdvm2020.TypeRepeaterOptions.toPy_regular (x : Mmdvm2020.TypeRepeaterOptions) : regular x.toPy := by
  refine (regular_object _ _).2 ?_
  refine (regular_flatten_cons _ _).2 ⟨(regular_attr _ _).2 (regular_int _), ?_⟩
  refine (regular_flatten_cons _ _).2 ⟨(regular_attr _ _).2 (regular_str _), ?_⟩
  simp [regularInValues]

theorem Mmdvm2020.TypeRepeaterPing.toPy_regular (x : Mmdvm2020.TypeRepeaterPing) : regular x.toPy := by
  refine (regular_object _ _).2 ?_
  refine (regular_flatten_cons _ _).2 ⟨(regular_attr _ _).2 (regular_bytes _), ?_⟩
  refine (regular_flatten_cons _ _).2 ⟨(regular_attr _ _).2 (regular_int _), ?_⟩
  simp [regularInValues]

theorem Mmdvm2020.CommandDataUnion.toPy_regular (x : Mmdvm2020.CommandDataUnion) : regular x.toPy := by
  cases x with
  | typeRepeaterLoginRequest x => exact Mmdvm2020.TypeRepeaterLoginRequest.toPy_regular x
  | typeRadioPosition x => exact Mmdvm2020.TypeRadioPosition.toPy_regular x
  | typeMasterRepeaterAck x => exact Mmdvm2020.TypeMasterRepeaterAck.toPy_regular x
  | typeRepeaterLoginResponse x => exact Mmdvm2020.TypeRepeaterLoginResponse.toPy_regular x
  | typeRepeaterConfigurationOrClosing x => exact Mmdvm2020.TypeRepeaterConfigurationOrClosing.toPy_regular x
  | typeDmrData x => exact Mmdvm2020.TypeDmrData.toPy_regular x
  | typeMasterClosing x => exact Mmdvm2020.TypeMasterClosing.toPy_regular x
  | typeRepeaterPing x => exact Mmdvm2020.TypeRepeaterPing.toPy_regular x
  | typeRepeaterOptions x => exact Mmdvm2020.TypeRepeaterOptions.toPy_regular x
  | typeMasterPong x => exact Mmdvm2020.TypeMasterPong.toPy_regular x
  | typeRepeaterBeacon x => exact Mmdvm2020.TypeRepeaterBeacon.toPy_regular x
  | typeMasterNotAccept x => exact Mmdvm2020.TypeMasterNotAccept.toPy_regular x
  | typeTalkerAlias x => exact Mmdvm2020.TypeTalkerAlias.toPy_regular x

theorem Mmdvm2020.fifthLetter_regular (o : Option Mmdvm2020.CommandDataUnion) (v : PyVal)
    (h : o.bind Mmdvm2020.CommandDataUnion.fifthLetter = some v) : regular v := by
  cases o with
  | none => cases h
  | some u =>
    simp only [Option.bind_some] at h
    unfold Mmdvm2020.CommandDataUnion.fifthLetter at h
    split at h <;> first | (cases h; exact regular_str _) | cases h

theorem Mmdvm2020.toPy_regular (x : Mmdvm2020) : regular x.toPy := by
  refine (regular_object _ _).2 ?_
  refine (regular_flatten_cons _ _).2 ⟨(regular_attr _ _).2 (regular_str _), ?_⟩
  refine (regular_flatten_cons _ _).2 ⟨regular_optAttr' _ _ fun v hv => Mmdvm2020.fifthLetter_regular x.command_data v hv, ?_⟩
  refine (regular_flatten_cons _ _).2 ⟨regular_optAttr _ _ _ fun y => Mmdvm2020.CommandDataUnion.toPy_regular y, ?_⟩
  simp [regularInValues]

end Dmr.Homebrew

namespace Dmr.Motorola

theorem AutomaticRegistrationService.MessageHeaderBits.toPy_regular (x : AutomaticRegistrationService.MessageHeaderBits) : regular x.toPy := by
  refine (regular_object _ _).2 ?_
  refine (regular_flatten_cons _ _).2 ⟨(regular_attr _ _).2 (regular_bool _), ?_⟩
  refine (regular_flatten_cons _ _).2 ⟨(regular_attr _ _).2 (regular_bool _), ?_⟩
  refine (regular_flatten_cons _ _).2 ⟨(regular_attr _ _).2 (regular_bool _), ?_⟩
  refine (regular_flatten_cons _ _).2 ⟨(regular_attr _ _).2 (regular_bool _), ?_⟩
  refine (regular_flatten_cons _ _).2 ⟨(regular_attr _ _).2 (regular_int _), ?_⟩
  simp [regularInValues]

theorem AutomaticRegistrationService.DeviceRegistrationAcknowledgementHeader.toPy_regular (x : AutomaticRegistrationService.DeviceRegistrationAcknowledgementHeader) : regular x.toPy := by
  refine (regular_object _ _).2 ?_
  refine (regular_flatten_cons _ _).2 ⟨(regular_attr _ _).2 (regular_bool _), ?_⟩
  refine (regular_flatten_cons _ _).2 ⟨(regular_attr _ _).2 (regular_int _), ?_⟩
  simp [regularInValues]

theorem AutomaticRegistrationService.DeviceRegistrationAcknowledgementFailureReason.toPy_regular (x : AutomaticRegistrationService.DeviceRegistrationAcknowledgementFailureReason) : regular x.toPy := by
  refine (regular_object _ _).2 ?_
  refine (regular_flatten_cons _ _).2 ⟨(regular_attr _ _).2 (regular_bool _), ?_⟩
  refine (regular_flatten_cons _ _).2 ⟨(regular_attr _ _).2 (regular_enum _ _), ?_⟩
  simp [regularInValues]

theorem AutomaticRegistrationService.AcknowledgementMessage.toPy_regular (x : AutomaticRegistrationService.AcknowledgementMessage) : regular x.toPy := by
  refine (regular_object _ _).2 ?_
  refine (regular_flatten_cons _ _).2 ⟨regular_optAttr _ _ _ fun y => AutomaticRegistrationService.DeviceRegistrationAcknowledgementHeader.toPy_regular y, ?_⟩
  refine (regular_flatten_cons _ _).2 ⟨regular_optAttr _ _ _ fun y => AutomaticRegistrationService.DeviceRegistrationAcknowledgementFailureReason.toPy_regular y, ?_⟩
  simp [regularInValues]

theorem AutomaticRegistrationService.DeviceRegistrationMessageHeader.toPy_regular (x : AutomaticRegistrationService.DeviceRegistrationMessageHeader) : regular x.toPy := by
  refine (regular_object _ _).2 ?_
  refine (regular_flatten_cons _ _).2 ⟨(regular_attr _ _).2 (regular_bool _), ?_⟩
  refine (regular_flatten_cons _ _).2 ⟨(regular_attr _ _).2 (regular_enum _ _), ?_⟩
  refine (regular_flatten_cons _ _).2 ⟨(regular_attr _ _).2 (regular_int _), ?_⟩
  simp [regularInValues]

theorem AutomaticRegistrationService.DeviceDeregistrationMessage.toPy_regular (x : AutomaticRegistrationService.DeviceDeregistrationMessage) : regular x.toPy := by
  refine (regular_object _ _).2 ?_
  simp [regularInValues]

theorem AutomaticRegistrationService.DeviceRegistrationMessage.toPy_regular (x : AutomaticRegistrationService.DeviceRegistrationMessage) : regular x.toPy := by
  refine (regular_object _ _).2 ?_
  refine (regular_flatten_cons _ _).2 ⟨regular_optAttr _ _ _ fun y => AutomaticRegistrationService.DeviceRegistrationMessageHeader.toPy_regular y, ?_⟩
  refine (regular_flatten_cons _ _).2 ⟨(regular_attr _ _).2 (regular_int _), ?_⟩
  refine (regular_flatten_cons _ _).2 ⟨regular_optAttr _ _ _ fun y => regular_bytes _, ?_⟩
  refine (regular_flatten_cons _ _).2 ⟨(regular_attr _ _).2 (regular_int _), ?_⟩
  refine (regular_flatten_cons _ _).2 ⟨regular_optAttr _ _ _ fun y => regular_bytes _, ?_⟩
  refine (regular_flatten_cons _ _).2 ⟨(regular_attr _ _).2 (regular_int _), ?_⟩
  refine (regular_flatten_cons _ _).2 ⟨regular_optAttr _ _ _ fun y => regular_bytes _, ?_⟩
  simp [regularInValues]

theorem AutomaticRegistrationService.ArsQueryMessage.toPy_regular (x : AutomaticRegistrationService.ArsQueryMessage) : regular x.toPy := by
  refine (regular_object _ _).2 ?_
  simp [regularInValues]

theorem AutomaticRegistrationService.PduContentUnion.toPy_regular (x : AutomaticRegistrationService.PduContentUnion) : regular x.toPy := by
  cases x with
  | deviceRegistrationMessage x => exact AutomaticRegistrationService.DeviceRegistrationMessage.toPy_regular x
  | deviceDeregistrationMessage x => exact AutomaticRegistrationService.DeviceDeregistrationMessage.toPy_regular x
  | arsQueryMessage x => exact AutomaticRegistrationService.ArsQueryMessage.toPy_regular x
  | acknowledgementMessage x => exact AutomaticRegistrationService.AcknowledgementMessage.toPy_regular x

theorem AutomaticRegistrationService.toPy_regular (x : AutomaticRegistrationService) : regular x.toPy := by
  refine (regular_object _ _).2 ?_
  refine (regular_flatten_cons _ _).2 ⟨(regular_attr _ _).2 (regular_int _), ?_⟩
  refine (regular_flatten_cons _ _).2 ⟨(regular_attr _ _).2 (AutomaticRegistrationService.MessageHeaderBits.toPy_regular x.message_header), ?_⟩
  refine (regular_flatten_cons _ _).2 ⟨regular_optAttr _ _ _ fun y => AutomaticRegistrationService.PduContentUnion.toPy_regular y, ?_⟩
  refine (regular_flatten_cons _ _).2 ⟨(regular_attr _ _).2 (regular_bytes _), ?_⟩
  simp [regularInValues]

theorem MotorolaBinaryXml.OpaqueElementValue.toPy_regular (x : MotorolaBinaryXml.OpaqueElementValue) : regular x.toPy := by
  refine (regular_object _ _).2 ?_
  refine (regular_flatten_cons _ _).2 ⟨(regular_attr _ _).2 (regular_int _), ?_⟩
  refine (regular_flatten_cons _ _).2 ⟨(regular_attr _ _).2 (regular_bytes _), ?_⟩
  simp [regularInValues]

theorem MotorolaBinaryXml.Opaque1byteValue.toPy_regular (x : MotorolaBinaryXml.Opaque1byteValue) : regular x.toPy := by
  refine (regular_object _ _).2 ?_
  refine (regular_flatten_cons _ _).2 ⟨(regular_attr _ _).2 (regular_bytes _), ?_⟩
  simp [regularInValues]

theorem MotorolaBinaryXml.Uintvar.toPy_regular (x : MotorolaBinaryXml.Uintvar) : regular x.toPy := by
  refine (regular_object _ _).2 ?_
  refine (regular_flatten_cons _ _).2 ⟨(regular_attr _ _).2 (regular_list _ _ fun y => regular_int _), ?_⟩
  simp [regularInValues]

theorem MotorolaBinaryXml.ConstantDataTableReference.toPy_regular (x : MotorolaBinaryXml.ConstantDataTableReference) : regular x.toPy := by
  refine (regular_object _ _).2 ?_
  refine (regular_flatten_cons _ _).2 ⟨(regular_attr _ _).2 (MotorolaBinaryXml.Uintvar.toPy_regular x.byte_offset_from_cdt_start), ?_⟩
  simp [regularInValues]

theorem MotorolaBinaryXml.LrrpElement.LrrpElementDataUnion.toPy_regular (x : MotorolaBinaryXml.LrrpElement.LrrpElementDataUnion) : regular x.toPy := by
  cases x with
  | opaqueElementValue x => exact MotorolaBinaryXml.OpaqueElementValue.toPy_regular x
  | opaque1byteValue x => exact MotorolaBinaryXml.Opaque1byteValue.toPy_regular x
  | constantDataTableReference x => exact MotorolaBinaryXml.ConstantDataTableReference.toPy_regular x

theorem MotorolaBinaryXml.LrrpElement.toPy_regular (x : MotorolaBinaryXml.LrrpElement) : regular x.toPy := by
  refine (regular_object _ _).2 ?_
  refine (regular_flatten_cons _ _).2 ⟨(regular_attr _ _).2 (regular_enum _ _), ?_⟩
  refine (regular_flatten_cons _ _).2 ⟨regular_optAttr _ _ _ fun y => MotorolaBinaryXml.LrrpElement.LrrpElementDataUnion.toPy_regular y, ?_⟩
  simp [regularInValues]

theorem MotorolaBinaryXml.LrrpImmediateRequestNcdt.toPy_regular (x : MotorolaBinaryXml.LrrpImmediateRequestNcdt) : regular x.toPy := by
  refine (regular_object _ _).2 ?_
  refine (regular_flatten_cons _ _).2 ⟨(regular_attr _ _).2 (MotorolaBinaryXml.LrrpElement.toPy_regular x.elements), ?_⟩
  simp [regularInValues]

theorem MotorolaBinaryXml.Opaque3byteValue.toPy_regular (x : MotorolaBinaryXml.Opaque3byteValue) : regular x.toPy := by
  refine (regular_object _ _).2 ?_
  refine (regular_flatten_cons _ _).2 ⟨(regular_attr _ _).2 (regular_bytes _), ?_⟩
  simp [regularInValues]

theorem MotorolaBinaryXml.Sintvar.toPy_regular (x : MotorolaBinaryXml.Sintvar) : regular x.toPy := by
  refine (regular_object _ _).2 ?_
  refine (regular_flatten_cons _ _).2 ⟨(regular_attr _ _).2 (regular_list _ _ fun y => regular_int _), ?_⟩
  simp [regularInValues]

theorem MotorolaBinaryXml.Sfloatvar.toPy_regular (x : MotorolaBinaryXml.Sfloatvar) : regular x.toPy := by
  refine (regular_object _ _).2 ?_
  refine (regular_flatten_cons _ _).2 ⟨(regular_attr _ _).2 (MotorolaBinaryXml.Sintvar.toPy_regular x.sint_payload), ?_⟩
  refine (regular_flatten_cons _ _).2 ⟨(regular_attr _ _).2 (MotorolaBinaryXml.Uintvar.toPy_regular x.fraction_payload), ?_⟩
  simp [regularInValues]

theorem MotorolaBinaryXml.Opaque5byteValue.toPy_regular (x : MotorolaBinaryXml.Opaque5byteValue) : regular x.toPy := by
  refine (regular_object _ _).2 ?_
  refine (regular_flatten_cons _ _).2 ⟨(regular_attr _ _).2 (regular_bytes _), ?_⟩
  simp [regularInValues]

theorem MotorolaBinaryXml.Ufloatvar.toPy_regular (x : MotorolaBinaryXml.Ufloatvar) : regular x.toPy := by
  refine (regular_object _ _).2 ?_
  refine (regular_flatten_cons _ _).2 ⟨(regular_attr _ _).2 (MotorolaBinaryXml.Uintvar.toPy_regular x.uint_payload), ?_⟩
  refine (regular_flatten_cons _ _).2 ⟨(regular_attr _ _).2 (MotorolaBinaryXml.Uintvar.toPy_regular x.fraction_payload), ?_⟩
  simp [regularInValues]

theorem MotorolaBinaryXml.MbxmlDocument.DocumentDataUnion.toPy_regular (x : MotorolaBinaryXml.MbxmlDocument.DocumentDataUnion) : regular x.toPy := by
  cases x with
  | lrrpImmediateRequestNcdt x => exact MotorolaBinaryXml.LrrpImmediateRequestNcdt.toPy_regular x

theorem MotorolaBinaryXml.MbxmlDocument.toPy_regular (x : MotorolaBinaryXml.MbxmlDocument) : regular x.toPy := by
  refine (regular_object _ _).2 ?_
  refine (regular_flatten_cons _ _).2 ⟨(regular_attr _ _).2 (regular_enum _ _), ?_⟩
  refine (regular_flatten_cons _ _).2 ⟨(regular_attr _ _).2 (MotorolaBinaryXml.Uintvar.toPy_regular x.num_document_bytes), ?_⟩
  refine (regular_flatten_cons _ _).2 ⟨regular_optAttr _ _ _ fun y => MotorolaBinaryXml.MbxmlDocument.DocumentDataUnion.toPy_regular y, ?_⟩
  simp [regularInValues]

theorem MotorolaBinaryXml.Opaque2byteValue.toPy_regular (x : MotorolaBinaryXml.Opaque2byteValue) : regular x.toPy := by
  refine (regular_object _ _).2 ?_
  refine (regular_flatten_cons _ _).2 ⟨(regular_attr _ _).2 (regular_bytes _), ?_⟩
  simp [regularInValues]

theorem MotorolaBinaryXml.Opaque4byteValue.toPy_regular (x : MotorolaBinaryXml.Opaque4byteValue) : regular x.toPy := by
  refine (regular_object _ _).2 ?_
  refine (regular_flatten_cons _ _).2 ⟨(regular_attr _ _).2 (regular_bytes _), ?_⟩
  simp [regularInValues]

theorem MotorolaBinaryXml.toPy_regular (x : MotorolaBinaryXml) : regular x.toPy := by
  refine (regular_object _ _).2 ?_
  refine (regular_flatten_cons _ _).2 ⟨(regular_attr _ _).2 (regular_list _ _ fun y => MotorolaBinaryXml.MbxmlDocument.toPy_regular y), ?_⟩
  simp [regularInValues]

theorem TextMessageProtocol.MessageHeaderBits.toPy_regular (x : TextMessageProtocol.MessageHeaderBits) : regular x.toPy := by
  refine (regular_object _ _).2 ?_
  refine (regular_flatten_cons _ _).2 ⟨(regular_attr _ _).2 (regular_bool _), ?_⟩
  refine (regular_flatten_cons _ _).2 ⟨(regular_attr _ _).2 (regular_bool _), ?_⟩
  refine (regular_flatten_cons _ _).2 ⟨(regular_attr _ _).2 (regular_bool _), ?_⟩
  refine (regular_flatten_cons _ _).2 ⟨(regular_attr _ _).2 (regular_bool _), ?_⟩
  refine (regular_flatten_cons _ _).2 ⟨(regular_attr _ _).2 (regular_int _), ?_⟩
  simp [regularInValues]

theorem TextMessageProtocol.TextMessageHeaderSequenceAndEncoding.toPy_regular (x : TextMessageProtocol.TextMessageHeaderSequenceAndEncoding) : regular x.toPy := by
  refine (regular_object _ _).2 ?_
  refine (regular_flatten_cons _ _).2 ⟨(regular_attr _ _).2 (regular_bool _), ?_⟩
  refine (regular_flatten_cons _ _).2 ⟨(regular_attr _ _).2 (regular_int _), ?_⟩
  refine (regular_flatten_cons _ _).2 ⟨(regular_attr _ _).2 (regular_int _), ?_⟩
  refine (regular_flatten_cons _ _).2 ⟨regular_optAttr _ _ _ fun y => regular_bool _, ?_⟩
  refine (regular_flatten_cons _ _).2 ⟨regular_optAttr _ _ _ fun y => regular_int _, ?_⟩
  refine (regular_flatten_cons _ _).2 ⟨(regular_attr _ _).2 (regular_int _), ?_⟩
  simp [regularInValues]

theorem TextMessageProtocol.TextMessage.toPy_regular (x : TextMessageProtocol.TextMessage) : regular x.toPy := by
  refine (regular_object _ _).2 ?_
  refine (regular_flatten_cons _ _).2 ⟨regular_optAttr _ _ _ fun y => TextMessageProtocol.TextMessageHeaderSequenceAndEncoding.toPy_regular y, ?_⟩
  refine (regular_flatten_cons _ _).2 ⟨(regular_attr _ _).2 (regular_str _), ?_⟩
  simp [regularInValues]

theorem TextMessageProtocol.TmsServiceAvailabilityHeader.toPy_regular (x : TextMessageProtocol.TmsServiceAvailabilityHeader) : regular x.toPy := by
  refine (regular_object _ _).2 ?_
  refine (regular_flatten_cons _ _).2 ⟨(regular_attr _ _).2 (regular_bool _), ?_⟩
  refine (regular_flatten_cons _ _).2 ⟨(regular_attr _ _).2 (regular_int _), ?_⟩
  refine (regular_flatten_cons _ _).2 ⟨(regular_attr _ _).2 (regular_enum _ _), ?_⟩
  simp [regularInValues]

theorem TextMessageProtocol.TmsServiceAvailability.toPy_regular (x : TextMessageProtocol.TmsServiceAvailability) : regular x.toPy := by
  refine (regular_object _ _).2 ?_
  refine (regular_flatten_cons _ _).2 ⟨regular_optAttr _ _ _ fun y => TextMessageProtocol.TmsServiceAvailabilityHeader.toPy_regular y, ?_⟩
  simp [regularInValues]

theorem TextMessageProtocol.TmsAcknowledgementHeaderSequenceNumber.toPy_regular (x : TextMessageProtocol.TmsAcknowledgementHeaderSequenceNumber) : regular x.toPy := by
  refine (regular_object _ _).2 ?_
  refine (regular_flatten_cons _ _).2 ⟨(regular_attr _ _).2 (regular_bool _), ?_⟩
  refine (regular_flatten_cons _ _).2 ⟨(regular_attr _ _).2 (regular_int _), ?_⟩
  refine (regular_flatten_cons _ _).2 ⟨(regular_attr _ _).2 (regular_int _), ?_⟩
  refine (regular_flatten_cons _ _).2 ⟨regular_optAttr _ _ _ fun y => regular_bool _, ?_⟩
  refine (regular_flatten_cons _ _).2 ⟨regular_optAttr _ _ _ fun y => regular_int _, ?_⟩
  refine (regular_flatten_cons _ _).2 ⟨regular_optAttr _ _ _ fun y => regular_int _, ?_⟩
  simp [regularInValues]

theorem TextMessageProtocol.TmsAcknowledgement.toPy_regular (x : TextMessageProtocol.TmsAcknowledgement) : regular x.toPy := by
  refine (regular_object _ _).2 ?_
  refine (regular_flatten_cons _ _).2 ⟨regular_optAttr _ _ _ fun y => TextMessageProtocol.TmsAcknowledgementHeaderSequenceNumber.toPy_regular y, ?_⟩
  simp [regularInValues]

theorem TextMessageProtocol.TmsServiceAvailabilityAcknowledgement.toPy_regular (x : TextMessageProtocol.TmsServiceAvailabilityAcknowledgement) : regular x.toPy := by
  refine (regular_object _ _).2 ?_
  simp [regularInValues]

theorem TextMessageProtocol.PduContentUnion.toPy_regular (x : TextMessageProtocol.PduContentUnion) : regular x.toPy := by
  cases x with
  | tmsServiceAvailability x => exact TextMessageProtocol.TmsServiceAvailability.toPy_regular x
  | tmsAcknowledgement x => exact TextMessageProtocol.TmsAcknowledgement.toPy_regular x
  | textMessage x => exact TextMessageProtocol.TextMessage.toPy_regular x

theorem TextMessageProtocol.toPy_regular (x : TextMessageProtocol) : regular x.toPy := by
  refine (regular_object _ _).2 ?_
  refine (regular_flatten_cons _ _).2 ⟨(regular_attr _ _).2 (regular_int _), ?_⟩
  refine (regular_flatten_cons _ _).2 ⟨(regular_attr _ _).2 (TextMessageProtocol.MessageHeaderBits.toPy_regular x.message_header), ?_⟩
  refine (regular_flatten_cons _ _).2 ⟨(regular_attr _ _).2 (regular_int _), ?_⟩
  refine (regular_flatten_cons _ _).2 ⟨regular_optAttr _ _ _ fun y => regular_bytes _, ?_⟩
  refine (regular_flatten_cons _ _).2 ⟨(regular_attr _ _).2 (regular_int _), ?_⟩
  refine (regular_flatten_cons _ _).2 ⟨regular_optAttr _ _ _ fun y => TextMessageProtocol.PduContentUnion.toPy_regular y, ?_⟩
  refine (regular_flatten_cons _ _).2 ⟨(regular_attr _ _).2 (regular_bytes _), ?_⟩
  simp [regularInValues]

end Dmr.Motorola
