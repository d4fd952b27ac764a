import Verif.Py.Few
import Verif.Model.Tools.PyView
/-
Generated by tools/mkfew.py: how many objects there are in every decoded object.
-/

open Dmr.Py.Few

namespace Dmr

/-- As many objects, at most, come with an item of a list. -/
def Py.perItem : Nat := 8

namespace Hytera

theorem RadioIp.toPy_few (x : RadioIp) : Few Py.perItem 1 x.toPy :=
  more (object (
    cons (attr (int _)) <|
    cons (attr (int _)) <|
    cons (attr (int _)) <|
    cons (attr (int _)) <|
    nil)) (by decide)

end Hytera

namespace Hytera

theorem RadioId.toPy_few (x : RadioId) : Few Py.perItem 1 x.toPy :=
  more (object (
    cons (attr (int _)) <|
    nil)) (by decide)

end Hytera

namespace Hytera

theorem Gpsdata.toPy_few (x : Gpsdata) : Few Py.perItem 1 x.toPy :=
  more (object (
    cons (attr (bytes _)) <|
    cons (attr (bytes _)) <|
    cons (attr (bytes _)) <|
    cons (attr (bytes _)) <|
    cons (attr (bytes _)) <|
    cons (attr (bytes _)) <|
    cons (attr (bytes _)) <|
    cons (attr (bytes _)) <|
    cons (attr (bytes _)) <|
    nil)) (by decide)

end Hytera

namespace Hytera

theorem Datetimestring.toPy_few (x : Datetimestring) : Few Py.perItem 1 x.toPy :=
  more (object (
    cons (attr (str _)) <|
    nil)) (by decide)

end Hytera

namespace Hytera

theorem Intervalstring.toPy_few (x : Intervalstring) : Few Py.perItem 1 x.toPy :=
  more (object (
    cons (attr (str _)) <|
    nil)) (by decide)

end Hytera

namespace Hytera

theorem DataDeliveryStates.toPy_few (x : DataDeliveryStates) : Few Py.perItem 2 x.toPy :=
  more (object (
    cons (attr (bytes _)) <|
    cons (attr (enum _ _)) <|
    cons (attr (int _)) <|
    cons (attr (RadioIp.toPy_few _)) <|
    cons (attr (int _)) <|
    cons (attr (enum _ _)) <|
    nil)) (by decide)

end Hytera

namespace Hytera

theorem DataTransmitProtocol.LastDataSlice.toPy_few (x : DataTransmitProtocol.LastDataSlice) : Few Py.perItem 3 x.toPy :=
  more (object (
    cons (attr (RadioIp.toPy_few _)) <|
    cons (attr (RadioIp.toPy_few _)) <|
    nil)) (by decide)

theorem DataTransmitProtocol.DtpRequest.toPy_few (x : DataTransmitProtocol.DtpRequest) : Few Py.perItem 3 x.toPy :=
  more (object (
    cons (attr (RadioIp.toPy_few _)) <|
    cons (attr (RadioIp.toPy_few _)) <|
    cons (attr (int _)) <|
    cons (attr (str _)) <|
    nil)) (by decide)

theorem DataTransmitProtocol.DataSliceAnswer.toPy_few (x : DataTransmitProtocol.DataSliceAnswer) : Few Py.perItem 3 x.toPy :=
  more (object (
    cons (attr (RadioIp.toPy_few _)) <|
    cons (attr (RadioIp.toPy_few _)) <|
    cons (attr (int _)) <|
    cons (attr (enum _ _)) <|
    nil)) (by decide)

theorem DataTransmitProtocol.DataSliceTransmit.toPy_few (x : DataTransmitProtocol.DataSliceTransmit) : Few Py.perItem 3 x.toPy :=
  more (object (
    cons (attr (RadioIp.toPy_few _)) <|
    cons (attr (RadioIp.toPy_few _)) <|
    cons (attr (int _)) <|
    cons (attr (bytes _)) <|
    nil)) (by decide)

theorem DataTransmitProtocol.LastDataSliceAnswer.toPy_few (x : DataTransmitProtocol.LastDataSliceAnswer) : Few Py.perItem 3 x.toPy :=
  more (object (
    cons (attr (RadioIp.toPy_few _)) <|
    cons (attr (RadioIp.toPy_few _)) <|
    cons (attr (enum _ _)) <|
    nil)) (by decide)

theorem DataTransmitProtocol.DtpAnswer.toPy_few (x : DataTransmitProtocol.DtpAnswer) : Few Py.perItem 3 x.toPy :=
  more (object (
    cons (attr (RadioIp.toPy_few _)) <|
    cons (attr (RadioIp.toPy_few _)) <|
    cons (attr (enum _ _)) <|
    nil)) (by decide)

theorem DataTransmitProtocol.DataUnion.toPy_few (x : DataTransmitProtocol.DataUnion) : Few Py.perItem 3 x.toPy := by
  cases x with
  | dtpRequest x => exact more (x.toPy_few) (by decide)
  | dataSliceTransmit x => exact more (x.toPy_few) (by decide)
  | dataSliceAnswer x => exact more (x.toPy_few) (by decide)
  | lastDataSliceAnswer x => exact more (x.toPy_few) (by decide)
  | dtpAnswer x => exact more (x.toPy_few) (by decide)
  | lastDataSlice x => exact more (x.toPy_few) (by decide)

theorem DataTransmitProtocol.toPy_few (x : DataTransmitProtocol) : Few Py.perItem 4 x.toPy :=
  more (object (
    cons (attr (enum _ _)) <|
    cons (attr (enum _ _)) <|
    cons (attr (int _)) <|
    cons (opt fun _ => DataTransmitProtocol.DataUnion.toPy_few _) <|
    nil)) (by decide)

end Hytera

namespace Hytera

theorem LocationProtocol.TriggeredReportStopAnswer.toPy_few (x : LocationProtocol.TriggeredReportStopAnswer) : Few Py.perItem 2 x.toPy :=
  more (object (
    cons (attr (int _)) <|
    cons (attr (RadioIp.toPy_few _)) <|
    cons (attr (enum _ _)) <|
    nil)) (by decide)

theorem LocationProtocol.ConditionReportRequest.toPy_few (x : LocationProtocol.ConditionReportRequest) : Few Py.perItem 6 x.toPy :=
  more (object (
    cons (attr (int _)) <|
    cons (attr (RadioIp.toPy_few _)) <|
    cons (attr (int _)) <|
    cons (attr (int _)) <|
    cons (attr (Datetimestring.toPy_few _)) <|
    cons (attr (Datetimestring.toPy_few _)) <|
    cons (attr (Intervalstring.toPy_few _)) <|
    cons (attr (Intervalstring.toPy_few _)) <|
    nil)) (by decide)

theorem LocationProtocol.QuickGpsPayload.toPy_few (x : LocationProtocol.QuickGpsPayload) : Few Py.perItem 4 x.toPy :=
  more (object (
    cons (attr (Datetimestring.toPy_few _)) <|
    cons (attr (Datetimestring.toPy_few _)) <|
    cons (attr (Intervalstring.toPy_few _)) <|
    cons (attr (int _)) <|
    cons (attr (int _)) <|
    cons (attr (int _)) <|
    nil)) (by decide)

theorem LocationProtocol.ConditionQuickGpsRequest.toPy_few (x : LocationProtocol.ConditionQuickGpsRequest) : Few Py.perItem 6 x.toPy :=
  more (object (
    cons (attr (int _)) <|
    cons (attr (RadioIp.toPy_few _)) <|
    cons (attr (enum _ _)) <|
    cons (opt fun _ => LocationProtocol.QuickGpsPayload.toPy_few _) <|
    nil)) (by decide)

theorem LocationProtocol.ConditionReport.toPy_few (x : LocationProtocol.ConditionReport) : Few Py.perItem 3 x.toPy :=
  more (object (
    cons (attr (int _)) <|
    cons (attr (RadioIp.toPy_few _)) <|
    cons (attr (Gpsdata.toPy_few _)) <|
    nil)) (by decide)

theorem LocationProtocol.EmergencyReport.toPy_few (x : LocationProtocol.EmergencyReport) : Few Py.perItem 3 x.toPy :=
  more (object (
    cons (attr (RadioIp.toPy_few _)) <|
    cons (attr (int _)) <|
    cons (attr (Gpsdata.toPy_few _)) <|
    nil)) (by decide)

theorem LocationProtocol.TriggeredReportAnswer.toPy_few (x : LocationProtocol.TriggeredReportAnswer) : Few Py.perItem 2 x.toPy :=
  more (object (
    cons (attr (int _)) <|
    cons (attr (RadioIp.toPy_few _)) <|
    cons (attr (enum _ _)) <|
    nil)) (by decide)

theorem LocationProtocol.StandardAnswerWithRssi.toPy_few (x : LocationProtocol.StandardAnswerWithRssi) : Few Py.perItem 3 x.toPy :=
  more (object (
    cons (attr (int _)) <|
    cons (attr (RadioIp.toPy_few _)) <|
    cons (attr (enum _ _)) <|
    cons (attr (Gpsdata.toPy_few _)) <|
    cons (attr (int _)) <|
    nil)) (by decide)

theorem LocationProtocol.StandardRequest.toPy_few (x : LocationProtocol.StandardRequest) : Few Py.perItem 2 x.toPy :=
  more (object (
    cons (attr (int _)) <|
    cons (attr (RadioIp.toPy_few _)) <|
    nil)) (by decide)

theorem LocationProtocol.TriggeredReportRequest.toPy_few (x : LocationProtocol.TriggeredReportRequest) : Few Py.perItem 5 x.toPy :=
  more (object (
    cons (attr (int _)) <|
    cons (attr (RadioIp.toPy_few _)) <|
    cons (attr (Datetimestring.toPy_few _)) <|
    cons (attr (Datetimestring.toPy_few _)) <|
    cons (attr (Intervalstring.toPy_few _)) <|
    nil)) (by decide)

theorem LocationProtocol.StandardAnswer.toPy_few (x : LocationProtocol.StandardAnswer) : Few Py.perItem 3 x.toPy :=
  more (object (
    cons (attr (int _)) <|
    cons (attr (RadioIp.toPy_few _)) <|
    cons (attr (enum _ _)) <|
    cons (attr (Gpsdata.toPy_few _)) <|
    nil)) (by decide)

theorem LocationProtocol.ConditionReportAnswer.toPy_few (x : LocationProtocol.ConditionReportAnswer) : Few Py.perItem 2 x.toPy :=
  more (object (
    cons (attr (int _)) <|
    cons (attr (RadioIp.toPy_few _)) <|
    cons (attr (enum _ _)) <|
    cons (attr (enum _ _)) <|
    nil)) (by decide)

theorem LocationProtocol.EmergencyReportStopRequest.toPy_few (x : LocationProtocol.EmergencyReportStopRequest) : Few Py.perItem 2 x.toPy :=
  more (object (
    cons (attr (int _)) <|
    cons (attr (RadioIp.toPy_few _)) <|
    nil)) (by decide)

theorem LocationProtocol.ConditionQuickGpsAnswer.toPy_few (x : LocationProtocol.ConditionQuickGpsAnswer) : Few Py.perItem 2 x.toPy :=
  more (object (
    cons (attr (int _)) <|
    cons (attr (RadioIp.toPy_few _)) <|
    cons (attr (enum _ _)) <|
    cons (attr (enum _ _)) <|
    nil)) (by decide)

theorem LocationProtocol.TriggeredReport.toPy_few (x : LocationProtocol.TriggeredReport) : Few Py.perItem 4 x.toPy :=
  more (object (
    cons (attr (int _)) <|
    cons (attr (RadioIp.toPy_few _)) <|
    cons (attr (Intervalstring.toPy_few _)) <|
    cons (attr (Gpsdata.toPy_few _)) <|
    nil)) (by decide)

theorem LocationProtocol.ConditionReportWithRssi.toPy_few (x : LocationProtocol.ConditionReportWithRssi) : Few Py.perItem 3 x.toPy :=
  more (object (
    cons (attr (int _)) <|
    cons (attr (RadioIp.toPy_few _)) <|
    cons (attr (enum _ _)) <|
    cons (attr (Gpsdata.toPy_few _)) <|
    cons (attr (int _)) <|
    nil)) (by decide)

theorem LocationProtocol.EmergencyReportStopAnswer.toPy_few (x : LocationProtocol.EmergencyReportStopAnswer) : Few Py.perItem 2 x.toPy :=
  more (object (
    cons (attr (int _)) <|
    cons (attr (RadioIp.toPy_few _)) <|
    cons (attr (enum _ _)) <|
    nil)) (by decide)

theorem LocationProtocol.TriggeredReportStopRequest.toPy_few (x : LocationProtocol.TriggeredReportStopRequest) : Few Py.perItem 2 x.toPy :=
  more (object (
    cons (attr (int _)) <|
    cons (attr (RadioIp.toPy_few _)) <|
    nil)) (by decide)

theorem LocationProtocol.DataUnion.toPy_few (x : LocationProtocol.DataUnion) : Few Py.perItem 6 x.toPy := by
  cases x with
  | triggeredReportAnswer x => exact more (x.toPy_few) (by decide)
  | emergencyReportStopRequest x => exact more (x.toPy_few) (by decide)
  | conditionQuickGpsRequest x => exact more (x.toPy_few) (by decide)
  | conditionReport x => exact more (x.toPy_few) (by decide)
  | emergencyReportStopAnswer x => exact more (x.toPy_few) (by decide)
  | conditionReportAnswer x => exact more (x.toPy_few) (by decide)
  | standardAnswer x => exact more (x.toPy_few) (by decide)
  | standardRequest x => exact more (x.toPy_few) (by decide)
  | triggeredReport x => exact more (x.toPy_few) (by decide)
  | triggeredReportStopAnswer x => exact more (x.toPy_few) (by decide)
  | standardAnswerWithRssi x => exact more (x.toPy_few) (by decide)
  | conditionReportWithRssi x => exact more (x.toPy_few) (by decide)
  | triggeredReportStopRequest x => exact more (x.toPy_few) (by decide)
  | emergencyReport x => exact more (x.toPy_few) (by decide)
  | conditionReportRequest x => exact more (x.toPy_few) (by decide)
  | triggeredReportRequest x => exact more (x.toPy_few) (by decide)
  | conditionQuickGpsAnswer x => exact more (x.toPy_few) (by decide)

theorem LocationProtocol.toPy_few (x : LocationProtocol) : Few Py.perItem 7 x.toPy :=
  more (object (
    cons (attr (enum _ _)) <|
    cons (attr (int _)) <|
    cons (opt fun _ => LocationProtocol.DataUnion.toPy_few _) <|
    nil)) (by decide)

end Hytera

namespace Hytera

theorem RadioControlProtocol.BroadcastStatusConfigurationReply.toPy_few (x : RadioControlProtocol.BroadcastStatusConfigurationReply) : Few Py.perItem 1 x.toPy :=
  more (object (
    cons (attr (enum _ _)) <|
    nil)) (by decide)

theorem RadioControlProtocol.BroadcastConfiguration.toPy_few (x : RadioControlProtocol.BroadcastConfiguration) : Few Py.perItem 1 x.toPy :=
  more (object (
    cons (attr (int _)) <|
    cons (attr (int _)) <|
    nil)) (by decide)

theorem RadioControlProtocol.BroadcastStatusConfigurationRequest.toPy_few (x : RadioControlProtocol.BroadcastStatusConfigurationRequest) : Few Py.perItem 1 x.toPy :=
  more (object (
    cons (attr (int _)) <|
    cons (attr (list (c := 1) (by decide) (fun _ => RadioControlProtocol.BroadcastConfiguration.toPy_few _) _)) <|
    nil)) (by decide)

theorem RadioControlProtocol.RadioIdentificationReply.toPy_few (x : RadioControlProtocol.RadioIdentificationReply) : Few Py.perItem 1 x.toPy :=
  more (object (
    cons (opt fun _ => bytes _) <|
    cons (opt fun _ => str _) <|
    cons (opt fun _ => bytes _) <|
    nil)) (by decide)

theorem RadioControlProtocol.GenericData.toPy_few (x : RadioControlProtocol.GenericData) : Few Py.perItem 1 x.toPy :=
  more (object (
    cons (attr (bytes _)) <|
    nil)) (by decide)

theorem RadioControlProtocol.CallRequest.toPy_few (x : RadioControlProtocol.CallRequest) : Few Py.perItem 1 x.toPy :=
  more (object (
    cons (attr (enum _ _)) <|
    cons (attr (int _)) <|
    nil)) (by decide)

theorem RadioControlProtocol.RemoveRadioReply.toPy_few (x : RadioControlProtocol.RemoveRadioReply) : Few Py.perItem 1 x.toPy :=
  more (object (
    cons (attr (enum _ _)) <|
    nil)) (by decide)

theorem RadioControlProtocol.RemoveRadioRequest.toPy_few (x : RadioControlProtocol.RemoveRadioRequest) : Few Py.perItem 1 x.toPy :=
  more (object (
    nil)) (by decide)

theorem RadioControlProtocol.CallReply.toPy_few (x : RadioControlProtocol.CallReply) : Few Py.perItem 1 x.toPy :=
  more (object (
    cons (attr (enum _ _)) <|
    nil)) (by decide)

theorem RadioControlProtocol.DataUnion.toPy_few (x : RadioControlProtocol.DataUnion) : Few Py.perItem 1 x.toPy := by
  cases x with
  | callReply x => exact more (x.toPy_few) (by decide)
  | radioIdentificationReply x => exact more (x.toPy_few) (by decide)
  | broadcastStatusConfigurationRequest x => exact more (x.toPy_few) (by decide)
  | callRequest x => exact more (x.toPy_few) (by decide)
  | removeRadioRequest x => exact more (x.toPy_few) (by decide)
  | broadcastStatusConfigurationReply x => exact more (x.toPy_few) (by decide)
  | removeRadioReply x => exact more (x.toPy_few) (by decide)
  | genericData x => exact more (x.toPy_few) (by decide)

theorem RadioControlProtocol.toPy_few (x : RadioControlProtocol) : Few Py.perItem 2 x.toPy :=
  more (object (
    cons (attr (enum _ _)) <|
    cons (attr (int _)) <|
    cons (attr (RadioControlProtocol.DataUnion.toPy_few _)) <|
    nil)) (by decide)

end Hytera

namespace Hytera

theorem RadioRegistrationService.toPy_few (x : RadioRegistrationService) : Few Py.perItem 2 x.toPy :=
  more (object (
    cons (attr (bytes _)) <|
    cons (attr (enum _ _)) <|
    cons (attr (int _)) <|
    cons (attr (RadioIp.toPy_few _)) <|
    cons (opt fun _ => int _) <|
    cons (opt fun _ => int _) <|
    nil)) (by decide)

end Hytera

namespace Hytera

theorem TelemetryProtocol.StandardStatusReport.toPy_few (x : TelemetryProtocol.StandardStatusReport) : Few Py.perItem 3 x.toPy :=
  more (object (
    cons (attr (RadioIp.toPy_few _)) <|
    cons (attr (RadioIp.toPy_few _)) <|
    cons (attr (enum _ _)) <|
    cons (attr (enum _ _)) <|
    cons (attr (bytes _)) <|
    cons (attr (enum _ _)) <|
    nil)) (by decide)

theorem TelemetryProtocol.VioExtendedStatus.toPy_few (x : TelemetryProtocol.VioExtendedStatus) : Few Py.perItem 1 x.toPy :=
  more (object (
    cons (attr (enum _ _)) <|
    cons (attr (int _)) <|
    cons (attr (str _)) <|
    nil)) (by decide)

theorem TelemetryProtocol.RemoteControlAnswer.toPy_few (x : TelemetryProtocol.RemoteControlAnswer) : Few Py.perItem 3 x.toPy :=
  more (object (
    cons (attr (RadioIp.toPy_few _)) <|
    cons (attr (RadioIp.toPy_few _)) <|
    cons (attr (enum _ _)) <|
    cons (attr (enum _ _)) <|
    cons (attr (bytes _)) <|
    cons (attr (enum _ _)) <|
    nil)) (by decide)

theorem TelemetryProtocol.RemoteControlRequest.toPy_few (x : TelemetryProtocol.RemoteControlRequest) : Few Py.perItem 3 x.toPy :=
  more (object (
    cons (attr (RadioIp.toPy_few _)) <|
    cons (attr (RadioIp.toPy_few _)) <|
    cons (attr (enum _ _)) <|
    cons (attr (enum _ _)) <|
    cons (attr (bytes _)) <|
    cons (attr (enum _ _)) <|
    nil)) (by decide)

theorem TelemetryProtocol.ExtendedStatusReport.toPy_few (x : TelemetryProtocol.ExtendedStatusReport) : Few Py.perItem 4 x.toPy :=
  more (object (
    cons (attr (RadioIp.toPy_few _)) <|
    cons (attr (RadioIp.toPy_few _)) <|
    cons (attr (enum _ _)) <|
    cons (attr (enum _ _)) <|
    cons (attr (bytes _)) <|
    cons (attr (TelemetryProtocol.VioExtendedStatus.toPy_few _)) <|
    nil)) (by decide)

theorem TelemetryProtocol.StandardStatusRequest.toPy_few (x : TelemetryProtocol.StandardStatusRequest) : Few Py.perItem 3 x.toPy :=
  more (object (
    cons (attr (RadioIp.toPy_few _)) <|
    cons (attr (RadioIp.toPy_few _)) <|
    cons (attr (enum _ _)) <|
    cons (attr (enum _ _)) <|
    cons (attr (bytes _)) <|
    nil)) (by decide)

theorem TelemetryProtocol.DataUnion.toPy_few (x : TelemetryProtocol.DataUnion) : Few Py.perItem 4 x.toPy := by
  cases x with
  | standardStatusRequest x => exact more (x.toPy_few) (by decide)
  | remoteControlAnswer x => exact more (x.toPy_few) (by decide)
  | extendedStatusReport x => exact more (x.toPy_few) (by decide)
  | remoteControlRequest x => exact more (x.toPy_few) (by decide)
  | standardStatusReport x => exact more (x.toPy_few) (by decide)

theorem TelemetryProtocol.toPy_few (x : TelemetryProtocol) : Few Py.perItem 5 x.toPy :=
  more (object (
    cons (attr (enum _ _)) <|
    cons (attr (int _)) <|
    cons (attr (int _)) <|
    cons (attr (enum _ _)) <|
    cons (opt fun _ => TelemetryProtocol.DataUnion.toPy_few _) <|
    nil)) (by decide)

end Hytera

namespace Hytera

theorem TextMessageProtocol.toPy_few (x : TextMessageProtocol) : Few Py.perItem 3 x.toPy :=
  more (object (
    cons (attr (enum _ _)) <|
    cons (attr (enum _ _)) <|
    cons (attr (int _)) <|
    cons (attr (enum _ _)) <|
    cons (attr (int _)) <|
    cons (opt fun _ => int _) <|
    cons (attr (int _)) <|
    cons (attr (RadioIp.toPy_few _)) <|
    cons (opt fun _ => RadioIp.toPy_few _) <|
    cons (opt fun _ => enum _ _) <|
    cons (opt fun _ => int _) <|
    cons (opt fun _ => str _) <|
    cons (opt fun _ => str _) <|
    nil)) (by decide)

end Hytera

namespace Hytera

theorem HyteraDmrApplicationProtocol.UndefinedProtocol.toPy_few (x : HyteraDmrApplicationProtocol.UndefinedProtocol) : Few Py.perItem 1 x.toPy :=
  more (object (
    cons (attr (bytes _)) <|
    nil)) (by decide)

theorem HyteraDmrApplicationProtocol.DataUnion.toPy_few (x : HyteraDmrApplicationProtocol.DataUnion) : Few Py.perItem 7 x.toPy := by
  cases x with
  | radioRegistrationService x => exact more (x.toPy_few) (by decide)
  | telemetryProtocol x => exact more (x.toPy_few) (by decide)
  | radioControlProtocol x => exact more (x.toPy_few) (by decide)
  | textMessageProtocol x => exact more (x.toPy_few) (by decide)
  | dataDeliveryStates x => exact more (x.toPy_few) (by decide)
  | locationProtocol x => exact more (x.toPy_few) (by decide)
  | dataTransmitProtocol x => exact more (x.toPy_few) (by decide)

theorem HyteraDmrApplicationProtocol.toPy_few (x : HyteraDmrApplicationProtocol) : Few Py.perItem 8 x.toPy :=
  more (object (
    cons (attr (bool _)) <|
    cons (attr (enum _ _)) <|
    cons (opt fun _ => HyteraDmrApplicationProtocol.DataUnion.toPy_few _) <|
    cons (attr (int _)) <|
    cons (attr (bytes _)) <|
    nil)) (by decide)

end Hytera

namespace Hytera

theorem HyteraRadioNetworkProtocol.toPy_few (x : HyteraRadioNetworkProtocol) : Few Py.perItem 9 x.toPy :=
  more (object (
    cons (attr (bytes _)) <|
    cons (attr (int _)) <|
    cons (attr (int _)) <|
    cons (attr (enum _ _)) <|
    cons (attr (int _)) <|
    cons (attr (int _)) <|
    cons (attr (int _)) <|
    cons (attr (int _)) <|
    cons (attr (int _)) <|
    cons (opt fun _ => HyteraDmrApplicationProtocol.toPy_few _) <|
    nil)) (by decide)

end Hytera

namespace Hytera

theorem HyteraSimpleTransportReliabilityProtocol.Option.toPy_few (x : HyteraSimpleTransportReliabilityProtocol.Option) : Few Py.perItem 1 x.toPy :=
  more (object (
    cons (attr (bool _)) <|
    cons (attr (enum _ _)) <|
    cons (attr (int _)) <|
    cons (attr (bytes _)) <|
    nil)) (by decide)

theorem HyteraSimpleTransportReliabilityProtocol.toPy_few (x : HyteraSimpleTransportReliabilityProtocol) : Few Py.perItem 1 x.toPy :=
  more (object (
    cons (attr (bytes _)) <|
    cons (attr (int _)) <|
    cons (attr (int _)) <|
    cons (attr (bool _)) <|
    cons (attr (bool _)) <|
    cons (attr (bool _)) <|
    cons (attr (bool _)) <|
    cons (attr (bool _)) <|
    cons (attr (bool _)) <|
    cons (attr (int _)) <|
    cons (opt fun _ => list (c := 1) (by decide) (fun _ => HyteraSimpleTransportReliabilityProtocol.Option.toPy_few _) _) <|
    cons (opt fun _ => list (c := 8) (by decide) (fun _ => HyteraDmrApplicationProtocol.toPy_few _) _) <|
    cons (opt fun _ => bytes _) <|
    nil)) (by decide)

end Hytera

namespace Hytera

theorem IpSiteConnectHeartbeat.Keepalive.toPy_few (x : IpSiteConnectHeartbeat.Keepalive) : Few Py.perItem 1 x.toPy :=
  more (object (
    cons (attr (bytes _)) <|
    nil)) (by decide)

theorem IpSiteConnectHeartbeat.PingPong.toPy_few (x : IpSiteConnectHeartbeat.PingPong) : Few Py.perItem 1 x.toPy :=
  more (object (
    cons (attr (bytes _)) <|
    cons (attr (bytes _)) <|
    cons (attr (bytes _)) <|
    cons (attr (int _)) <|
    cons (attr (bytes _)) <|
    nil)) (by decide)

theorem IpSiteConnectHeartbeat.Unknown.toPy_few (x : IpSiteConnectHeartbeat.Unknown) : Few Py.perItem 1 x.toPy :=
  more (object (
    cons (attr (bytes _)) <|
    nil)) (by decide)

theorem IpSiteConnectHeartbeat.DataUnion.toPy_few (x : IpSiteConnectHeartbeat.DataUnion) : Few Py.perItem 1 x.toPy := by
  cases x with
  | keepalive x => exact more (x.toPy_few) (by decide)
  | pingPong x => exact more (x.toPy_few) (by decide)
  | unknown x => exact more (x.toPy_few) (by decide)

theorem IpSiteConnectHeartbeat.toPy_few (x : IpSiteConnectHeartbeat) : Few Py.perItem 2 x.toPy :=
  more (object (
    cons (attr (IpSiteConnectHeartbeat.DataUnion.toPy_few _)) <|
    nil)) (by decide)

end Hytera

namespace Hytera

theorem IpSiteConnectProtocol.toPy_few (x : IpSiteConnectProtocol) : Few Py.perItem 1 x.toPy :=
  more (object (
    cons (attr (bytes _)) <|
    cons (attr (bytes _)) <|
    cons (attr (int _)) <|
    cons (attr (bytes _)) <|
    cons (attr (enum _ _)) <|
    cons (attr (bytes _)) <|
    cons (attr (enum _ _)) <|
    cons (attr (enum _ _)) <|
    cons (attr (int _)) <|
    cons (attr (enum _ _)) <|
    cons (attr (bytes _)) <|
    cons (attr (bytes _)) <|
    cons (attr (bytes _)) <|
    cons (attr (enum _ _)) <|
    cons (attr (int _)) <|
    cons (attr (int _)) <|
    cons (attr (int _)) <|
    cons (opt fun _ => bytes _) <|
    nil)) (by decide)

end Hytera

namespace Hytera

theorem RealTimeTransportProtocol.FixedHeader.toPy_few (x : RealTimeTransportProtocol.FixedHeader) : Few Py.perItem 1 x.toPy :=
  more (object (
    cons (attr (int _)) <|
    cons (attr (bool _)) <|
    cons (attr (bool _)) <|
    cons (attr (int _)) <|
    cons (attr (bool _)) <|
    cons (attr (int _)) <|
    cons (attr (int _)) <|
    cons (attr (int _)) <|
    cons (attr (int _)) <|
    cons (attr (list (c := 0) (by decide) (fun _ => int _) _)) <|
    nil)) (by decide)

theorem RealTimeTransportProtocol.HeaderExtension.toPy_few (x : RealTimeTransportProtocol.HeaderExtension) : Few Py.perItem 3 x.toPy :=
  more (object (
    cons (attr (int _)) <|
    cons (attr (int _)) <|
    cons (attr (int _)) <|
    cons (attr (bool _)) <|
    cons (attr (RadioId.toPy_few _)) <|
    cons (attr (RadioId.toPy_few _)) <|
    cons (attr (enum _ _)) <|
    cons (attr (bytes _)) <|
    nil)) (by decide)

theorem RealTimeTransportProtocol.toPy_few (x : RealTimeTransportProtocol) : Few Py.perItem 5 x.toPy :=
  more (object (
    cons (attr (RealTimeTransportProtocol.FixedHeader.toPy_few _)) <|
    cons (opt fun _ => RealTimeTransportProtocol.HeaderExtension.toPy_few _) <|
    cons (opt_plain fun v h => by split at h <;> cases h; exact int _) <|
    cons (attr (int _)) <|
    cons (attr (bytes _)) <|
    cons (opt fun _ => bytes _) <|
    nil)) (by decide)

end Hytera

namespace Etsi

theorem DmrCsbk.NegativeAckResponseData.toPy_few (x : DmrCsbk.NegativeAckResponseData) : Few Py.perItem 1 x.toPy :=
  more (object (
    cons (attr (bool _)) <|
    cons (attr (bool _)) <|
    cons (attr (int _)) <|
    cons (attr (int _)) <|
    cons (attr (int _)) <|
    cons (attr (int _)) <|
    nil)) (by decide)

theorem DmrCsbk.ServiceOptions.toPy_few (x : DmrCsbk.ServiceOptions) : Few Py.perItem 1 x.toPy :=
  more (object (
    cons (attr (bool _)) <|
    cons (attr (bool _)) <|
    cons (attr (int _)) <|
    cons (attr (bool _)) <|
    cons (attr (bool _)) <|
    cons (attr (int _)) <|
    nil)) (by decide)

theorem DmrCsbk.UnitToUnitVoiceRequestData.toPy_few (x : DmrCsbk.UnitToUnitVoiceRequestData) : Few Py.perItem 2 x.toPy :=
  more (object (
    cons (attr (DmrCsbk.ServiceOptions.toPy_few _)) <|
    cons (attr (int _)) <|
    cons (attr (int _)) <|
    cons (attr (int _)) <|
    nil)) (by decide)

theorem DmrCsbk.PreambleData.toPy_few (x : DmrCsbk.PreambleData) : Few Py.perItem 1 x.toPy :=
  more (object (
    cons (attr (enum _ _)) <|
    cons (attr (enum _ _)) <|
    cons (attr (int _)) <|
    cons (attr (int _)) <|
    cons (attr (int _)) <|
    cons (attr (int _)) <|
    nil)) (by decide)

theorem DmrCsbk.ChannelTimingData.toPy_few (x : DmrCsbk.ChannelTimingData) : Few Py.perItem 1 x.toPy :=
  more (object (
    cons (attr (int _)) <|
    cons (attr (int _)) <|
    cons (attr (int _)) <|
    cons (attr (bool _)) <|
    cons (attr (int _)) <|
    cons (attr (bool _)) <|
    cons (attr (int _)) <|
    cons (attr (bool _)) <|
    cons (attr (int _)) <|
    cons (attr (bool _)) <|
    nil)) (by decide)

theorem DmrCsbk.BsOutboundActivationData.toPy_few (x : DmrCsbk.BsOutboundActivationData) : Few Py.perItem 1 x.toPy :=
  more (object (
    cons (attr (int _)) <|
    cons (attr (int _)) <|
    cons (attr (int _)) <|
    nil)) (by decide)

theorem DmrCsbk.UnitToUnitVoiceAnswerData.toPy_few (x : DmrCsbk.UnitToUnitVoiceAnswerData) : Few Py.perItem 2 x.toPy :=
  more (object (
    cons (attr (DmrCsbk.ServiceOptions.toPy_few _)) <|
    cons (attr (enum _ _)) <|
    cons (attr (int _)) <|
    cons (attr (int _)) <|
    nil)) (by decide)

theorem DmrCsbk.CsbkDataUnion.toPy_few (x : DmrCsbk.CsbkDataUnion) : Few Py.perItem 2 x.toPy := by
  cases x with
  | unitToUnitVoiceAnswerData x => exact more (x.toPy_few) (by decide)
  | preambleData x => exact more (x.toPy_few) (by decide)
  | channelTimingData x => exact more (x.toPy_few) (by decide)
  | unitToUnitVoiceRequestData x => exact more (x.toPy_few) (by decide)
  | bsOutboundActivationData x => exact more (x.toPy_few) (by decide)
  | negativeAckResponseData x => exact more (x.toPy_few) (by decide)

theorem DmrCsbk.toPy_few (x : DmrCsbk) : Few Py.perItem 3 x.toPy :=
  more (object (
    cons (attr (bool _)) <|
    cons (attr (bool _)) <|
    cons (attr (enum _ _)) <|
    cons (attr (int _)) <|
    cons (opt fun _ => DmrCsbk.CsbkDataUnion.toPy_few _) <|
    nil)) (by decide)

end Etsi

namespace Etsi

theorem DmrData.Rate1LastBlockUnconfirmed.toPy_few (x : DmrData.Rate1LastBlockUnconfirmed) : Few Py.perItem 1 x.toPy :=
  more (object (
    cons (attr (bytes _)) <|
    cons (attr (bytes _)) <|
    nil)) (by decide)

theorem DmrData.Rate12LastBlockConfirmed.toPy_few (x : DmrData.Rate12LastBlockConfirmed) : Few Py.perItem 1 x.toPy :=
  more (object (
    cons (attr (int _)) <|
    cons (attr (int _)) <|
    cons (attr (bytes _)) <|
    cons (attr (bytes _)) <|
    nil)) (by decide)

theorem DmrData.Rate12Confirmed.toPy_few (x : DmrData.Rate12Confirmed) : Few Py.perItem 1 x.toPy :=
  more (object (
    cons (attr (int _)) <|
    cons (attr (int _)) <|
    cons (attr (bytes _)) <|
    nil)) (by decide)

theorem DmrData.Rate34LastBlockUnconfirmed.toPy_few (x : DmrData.Rate34LastBlockUnconfirmed) : Few Py.perItem 1 x.toPy :=
  more (object (
    cons (attr (bytes _)) <|
    cons (attr (bytes _)) <|
    nil)) (by decide)

theorem DmrData.Rate1LastBlockConfirmed.toPy_few (x : DmrData.Rate1LastBlockConfirmed) : Few Py.perItem 1 x.toPy :=
  more (object (
    cons (attr (int _)) <|
    cons (attr (int _)) <|
    cons (attr (bytes _)) <|
    cons (attr (bytes _)) <|
    nil)) (by decide)

theorem DmrData.Rate1Unconfirmed.toPy_few (x : DmrData.Rate1Unconfirmed) : Few Py.perItem 1 x.toPy :=
  more (object (
    cons (attr (bytes _)) <|
    nil)) (by decide)

theorem DmrData.UdtLastBlock.toPy_few (x : DmrData.UdtLastBlock) : Few Py.perItem 1 x.toPy :=
  more (object (
    cons (attr (bytes _)) <|
    cons (attr (bytes _)) <|
    nil)) (by decide)

theorem DmrData.Rate34Confirmed.toPy_few (x : DmrData.Rate34Confirmed) : Few Py.perItem 1 x.toPy :=
  more (object (
    cons (attr (int _)) <|
    cons (attr (int _)) <|
    cons (attr (bytes _)) <|
    nil)) (by decide)

theorem DmrData.Rate34LastBlockConfirmed.toPy_few (x : DmrData.Rate34LastBlockConfirmed) : Few Py.perItem 1 x.toPy :=
  more (object (
    cons (attr (int _)) <|
    cons (attr (int _)) <|
    cons (attr (bytes _)) <|
    cons (attr (bytes _)) <|
    nil)) (by decide)

theorem DmrData.Rate34Unconfirmed.toPy_few (x : DmrData.Rate34Unconfirmed) : Few Py.perItem 1 x.toPy :=
  more (object (
    cons (attr (bytes _)) <|
    nil)) (by decide)

theorem DmrData.Rate12LastBlockUnconfirmed.toPy_few (x : DmrData.Rate12LastBlockUnconfirmed) : Few Py.perItem 1 x.toPy :=
  more (object (
    cons (attr (bytes _)) <|
    cons (attr (bytes _)) <|
    nil)) (by decide)

theorem DmrData.Rate1Confirmed.toPy_few (x : DmrData.Rate1Confirmed) : Few Py.perItem 1 x.toPy :=
  more (object (
    cons (attr (int _)) <|
    cons (attr (int _)) <|
    cons (attr (bytes _)) <|
    nil)) (by decide)

theorem DmrData.Rate12Unconfirmed.toPy_few (x : DmrData.Rate12Unconfirmed) : Few Py.perItem 1 x.toPy :=
  more (object (
    cons (attr (bytes _)) <|
    nil)) (by decide)

theorem DmrData.toPy_few (x : DmrData) : Few Py.perItem 1 x.toPy :=
  more (object (
    nil)) (by decide)

end Etsi

namespace Etsi

theorem DmrDataHeader.DataHeaderShortRaw.toPy_few (x : DmrDataHeader.DataHeaderShortRaw) : Few Py.perItem 1 x.toPy :=
  more (object (
    cons (attr (bool _)) <|
    cons (attr (bool _)) <|
    cons (attr (int _)) <|
    cons (attr (enum _ _)) <|
    cons (attr (enum _ _)) <|
    cons (attr (int _)) <|
    cons (attr (int _)) <|
    cons (attr (int _)) <|
    cons (attr (int _)) <|
    cons (attr (int _)) <|
    cons (attr (bool _)) <|
    cons (attr (bool _)) <|
    cons (attr (int _)) <|
    cons (attr (bytes _)) <|
    nil)) (by decide)

theorem DmrDataHeader.DataHeaderProprietary.toPy_few (x : DmrDataHeader.DataHeaderProprietary) : Few Py.perItem 1 x.toPy :=
  more (object (
    cons (attr (enum _ _)) <|
    cons (attr (enum _ _)) <|
    cons (attr (int _)) <|
    cons (attr (bytes _)) <|
    cons (attr (bytes _)) <|
    nil)) (by decide)

theorem DmrDataHeader.DataHeaderUndefined.toPy_few (x : DmrDataHeader.DataHeaderUndefined) : Few Py.perItem 1 x.toPy :=
  more (object (
    cons (attr (bytes _)) <|
    nil)) (by decide)

theorem DmrDataHeader.DataHeaderShortStatusPrecoded.toPy_few (x : DmrDataHeader.DataHeaderShortStatusPrecoded) : Few Py.perItem 1 x.toPy :=
  more (object (
    cons (attr (bool _)) <|
    cons (attr (bool _)) <|
    cons (attr (int _)) <|
    cons (attr (enum _ _)) <|
    cons (attr (enum _ _)) <|
    cons (attr (int _)) <|
    cons (attr (int _)) <|
    cons (attr (int _)) <|
    cons (attr (int _)) <|
    cons (attr (int _)) <|
    cons (attr (int _)) <|
    cons (attr (bytes _)) <|
    nil)) (by decide)

theorem DmrDataHeader.DataHeaderResponse.toPy_few (x : DmrDataHeader.DataHeaderResponse) : Few Py.perItem 1 x.toPy :=
  more (object (
    cons (attr (bool _)) <|
    cons (attr (bool _)) <|
    cons (attr (int _)) <|
    cons (attr (enum _ _)) <|
    cons (attr (enum _ _)) <|
    cons (attr (int _)) <|
    cons (attr (int _)) <|
    cons (attr (int _)) <|
    cons (attr (bool _)) <|
    cons (attr (int _)) <|
    cons (attr (enum _ _)) <|
    cons (attr (int _)) <|
    cons (attr (int _)) <|
    cons (attr (bytes _)) <|
    nil)) (by decide)

theorem DmrDataHeader.DataHeaderConfirmed.toPy_few (x : DmrDataHeader.DataHeaderConfirmed) : Few Py.perItem 1 x.toPy :=
  more (object (
    cons (attr (bool _)) <|
    cons (attr (bool _)) <|
    cons (attr (bool _)) <|
    cons (attr (bool _)) <|
    cons (attr (enum _ _)) <|
    cons (attr (enum _ _)) <|
    cons (attr (int _)) <|
    cons (attr (int _)) <|
    cons (attr (int _)) <|
    cons (attr (bool _)) <|
    cons (attr (int _)) <|
    cons (attr (bool _)) <|
    cons (attr (int _)) <|
    cons (attr (int _)) <|
    cons (attr (bytes _)) <|
    nil)) (by decide)

theorem DmrDataHeader.DataHeaderUnconfirmed.toPy_few (x : DmrDataHeader.DataHeaderUnconfirmed) : Few Py.perItem 1 x.toPy :=
  more (object (
    cons (attr (bool _)) <|
    cons (attr (bool _)) <|
    cons (attr (bool _)) <|
    cons (attr (bool _)) <|
    cons (attr (enum _ _)) <|
    cons (attr (enum _ _)) <|
    cons (attr (int _)) <|
    cons (attr (int _)) <|
    cons (attr (int _)) <|
    cons (attr (bool _)) <|
    cons (attr (int _)) <|
    cons (attr (int _)) <|
    cons (attr (int _)) <|
    cons (attr (bytes _)) <|
    nil)) (by decide)

theorem DmrDataHeader.DataHeaderShortDefined.toPy_few (x : DmrDataHeader.DataHeaderShortDefined) : Few Py.perItem 1 x.toPy :=
  more (object (
    cons (attr (bool _)) <|
    cons (attr (bool _)) <|
    cons (attr (int _)) <|
    cons (attr (enum _ _)) <|
    cons (attr (enum _ _)) <|
    cons (attr (int _)) <|
    cons (attr (int _)) <|
    cons (attr (int _)) <|
    cons (attr (enum _ _)) <|
    cons (attr (bool _)) <|
    cons (attr (bool _)) <|
    cons (attr (int _)) <|
    cons (attr (bytes _)) <|
    nil)) (by decide)

theorem DmrDataHeader.DataHeaderUdt.toPy_few (x : DmrDataHeader.DataHeaderUdt) : Few Py.perItem 1 x.toPy :=
  more (object (
    cons (attr (bool _)) <|
    cons (attr (bool _)) <|
    cons (attr (int _)) <|
    cons (attr (enum _ _)) <|
    cons (attr (enum _ _)) <|
    cons (attr (enum _ _)) <|
    cons (attr (int _)) <|
    cons (attr (int _)) <|
    cons (attr (int _)) <|
    cons (attr (bool _)) <|
    cons (attr (int _)) <|
    cons (attr (bool _)) <|
    cons (attr (bool _)) <|
    cons (attr (enum _ _)) <|
    cons (attr (bytes _)) <|
    nil)) (by decide)

theorem DmrDataHeader.toPy_few (x : DmrDataHeader) : Few Py.perItem 1 x.toPy :=
  more (object (
    cons (attr (int _)) <|
    cons (attr (enum _ _)) <|
    nil)) (by decide)

theorem DmrDataHeader.DataUnion.toPy_few (x : DmrDataHeader.DataUnion) : Few Py.perItem 1 x.toPy := by
  cases x with
  | dataHeaderProprietary x => exact more (x.toPy_few) (by decide)
  | dataHeaderShortDefined x => exact more (x.toPy_few) (by decide)
  | dataHeaderUnconfirmed x => exact more (x.toPy_few) (by decide)
  | dataHeaderConfirmed x => exact more (x.toPy_few) (by decide)
  | dataHeaderUdt x => exact more (x.toPy_few) (by decide)
  | dataHeaderShortStatusPrecoded x => exact more (x.toPy_few) (by decide)
  | dataHeaderResponse x => exact more (x.toPy_few) (by decide)
  | dataHeaderUndefined x => exact more (x.toPy_few) (by decide)

end Etsi

namespace Etsi

theorem DmrIpUdp.UdpIpv4CompressedHeader.toPy_few (x : DmrIpUdp.UdpIpv4CompressedHeader) : Few Py.perItem 1 x.toPy :=
  more (object (
    cons (attr (bytes _)) <|
    cons (attr (enum _ _)) <|
    cons (attr (enum _ _)) <|
    cons (attr (bool _)) <|
    cons (attr (enum _ _)) <|
    cons (attr (bool _)) <|
    cons (attr (enum _ _)) <|
    cons (opt fun _ => bytes _) <|
    cons (opt fun _ => bytes _) <|
    cons (attr (bytes _)) <|
    nil)) (by decide)

theorem DmrIpUdp.toPy_few (x : DmrIpUdp) : Few Py.perItem 1 x.toPy :=
  more (object (
    nil)) (by decide)

end Etsi

namespace Etsi

theorem FullLinkControl.GpsInfoLcPdu.toPy_few (x : FullLinkControl.GpsInfoLcPdu) : Few Py.perItem 1 x.toPy :=
  more (object (
    cons (attr (int _)) <|
    cons (attr (enum _ _)) <|
    cons (attr (int _)) <|
    cons (attr (int _)) <|
    nil)) (by decide)

theorem FullLinkControl.GroupVoiceChannelUser.toPy_few (x : FullLinkControl.GroupVoiceChannelUser) : Few Py.perItem 1 x.toPy :=
  more (object (
    cons (attr (int _)) <|
    cons (attr (int _)) <|
    cons (attr (int _)) <|
    nil)) (by decide)

theorem FullLinkControl.UnitToUnitVoiceChannelUser.toPy_few (x : FullLinkControl.UnitToUnitVoiceChannelUser) : Few Py.perItem 1 x.toPy :=
  more (object (
    cons (attr (int _)) <|
    cons (attr (int _)) <|
    cons (attr (int _)) <|
    nil)) (by decide)

theorem FullLinkControl.TalkerAliasHeader.toPy_few (x : FullLinkControl.TalkerAliasHeader) : Few Py.perItem 1 x.toPy :=
  more (object (
    cons (attr (enum _ _)) <|
    cons (attr (int _)) <|
    cons (attr (int _)) <|
    nil)) (by decide)

theorem FullLinkControl.TalkerAliasContinuation.toPy_few (x : FullLinkControl.TalkerAliasContinuation) : Few Py.perItem 1 x.toPy :=
  more (object (
    cons (attr (int _)) <|
    nil)) (by decide)

theorem FullLinkControl.SpecificDataUnion.toPy_few (x : FullLinkControl.SpecificDataUnion) : Few Py.perItem 1 x.toPy := by
  cases x with
  | talkerAliasHeader x => exact more (x.toPy_few) (by decide)
  | unitToUnitVoiceChannelUser x => exact more (x.toPy_few) (by decide)
  | groupVoiceChannelUser x => exact more (x.toPy_few) (by decide)
  | talkerAliasContinuation x => exact more (x.toPy_few) (by decide)
  | gpsInfoLcPdu x => exact more (x.toPy_few) (by decide)

theorem FullLinkControl.toPy_few (x : FullLinkControl) : Few Py.perItem 2 x.toPy :=
  more (object (
    cons (attr (bool _)) <|
    cons (attr (bool _)) <|
    cons (attr (enum _ _)) <|
    cons (attr (enum _ _)) <|
    cons (opt fun _ => FullLinkControl.SpecificDataUnion.toPy_few _) <|
    cons (opt fun _ => bytes _) <|
    cons (opt fun _ => int _) <|
    nil)) (by decide)

end Etsi

namespace Homebrew

theorem Homebrew2015.TypeMasterPing.toPy_few (x : Homebrew2015.TypeMasterPing) : Few Py.perItem 1 x.toPy :=
  more (object (
    cons (attr (bytes _)) <|
    cons (attr (int _)) <|
    nil)) (by decide)

theorem Homebrew2015.TypeRepeaterPong.toPy_few (x : Homebrew2015.TypeRepeaterPong) : Few Py.perItem 1 x.toPy :=
  more (object (
    cons (attr (bytes _)) <|
    cons (attr (int _)) <|
    nil)) (by decide)

theorem Homebrew2015.TypeRepeaterClosing.toPy_few (x : Homebrew2015.TypeRepeaterClosing) : Few Py.perItem 1 x.toPy :=
  more (object (
    cons (attr (bytes _)) <|
    cons (attr (int _)) <|
    nil)) (by decide)

theorem Homebrew2015.TypeRepeaterConfiguration.toPy_few (x : Homebrew2015.TypeRepeaterConfiguration) : Few Py.perItem 1 x.toPy :=
  more (object (
    cons (attr (int _)) <|
    cons (attr (str _)) <|
    cons (attr (str _)) <|
    cons (attr (str _)) <|
    cons (attr (str _)) <|
    cons (attr (str _)) <|
    cons (attr (str _)) <|
    cons (attr (str _)) <|
    cons (attr (str _)) <|
    cons (attr (str _)) <|
    cons (attr (str _)) <|
    cons (attr (str _)) <|
    cons (attr (str _)) <|
    cons (attr (str _)) <|
    cons (attr (str _)) <|
    nil)) (by decide)

theorem Homebrew2015.TypeRepeaterConfigurationOrClosing.DataUnion.toPy_few (x : Homebrew2015.TypeRepeaterConfigurationOrClosing.DataUnion) : Few Py.perItem 1 x.toPy := by
  cases x with
  | typeRepeaterClosing x => exact more (x.toPy_few) (by decide)
  | typeRepeaterConfiguration x => exact more (x.toPy_few) (by decide)

theorem Homebrew2015.TypeRepeaterConfigurationOrClosing.toPy_few (x : Homebrew2015.TypeRepeaterConfigurationOrClosing) : Few Py.perItem 2 x.toPy :=
  more (object (
    cons (attr (Homebrew2015.TypeRepeaterConfigurationOrClosing.DataUnion.toPy_few _)) <|
    nil)) (by decide)

theorem Homebrew2015.TypeRepeaterLoginResponse.toPy_few (x : Homebrew2015.TypeRepeaterLoginResponse) : Few Py.perItem 1 x.toPy :=
  more (object (
    cons (attr (int _)) <|
    cons (attr (bytes _)) <|
    nil)) (by decide)

theorem Homebrew2015.TypeRepeaterLoginRequest.toPy_few (x : Homebrew2015.TypeRepeaterLoginRequest) : Few Py.perItem 1 x.toPy :=
  more (object (
    cons (attr (int _)) <|
    nil)) (by decide)

theorem Homebrew2015.TypeMasterNotAccept.toPy_few (x : Homebrew2015.TypeMasterNotAccept) : Few Py.perItem 1 x.toPy :=
  more (object (
    cons (attr (bytes _)) <|
    cons (attr (int _)) <|
    nil)) (by decide)

theorem Homebrew2015.TypeMasterRepeaterAck.toPy_few (x : Homebrew2015.TypeMasterRepeaterAck) : Few Py.perItem 1 x.toPy :=
  more (object (
    cons (attr (bytes _)) <|
    cons (attr (int _)) <|
    cons (opt fun _ => int _) <|
    nil)) (by decide)

theorem Homebrew2015.TypeMasterClosing.toPy_few (x : Homebrew2015.TypeMasterClosing) : Few Py.perItem 1 x.toPy :=
  more (object (
    cons (attr (bytes _)) <|
    cons (attr (int _)) <|
    nil)) (by decide)

theorem Homebrew2015.TypeDmrData.toPy_few (x : Homebrew2015.TypeDmrData) : Few Py.perItem 1 x.toPy :=
  more (object (
    cons (attr (int _)) <|
    cons (attr (int _)) <|
    cons (attr (int _)) <|
    cons (attr (int _)) <|
    cons (attr (enum _ _)) <|
    cons (attr (enum _ _)) <|
    cons (attr (enum _ _)) <|
    cons (attr (int _)) <|
    cons (attr (int _)) <|
    cons (attr (bytes _)) <|
    cons (opt fun _ => int _) <|
    cons (opt fun _ => int _) <|
    nil)) (by decide)

theorem Homebrew2015.TypeRepeaterOptions.toPy_few (x : Homebrew2015.TypeRepeaterOptions) : Few Py.perItem 1 x.toPy :=
  more (object (
    cons (attr (int _)) <|
    cons (attr (str _)) <|
    nil)) (by decide)

theorem Homebrew2015.CommandDataUnion.toPy_few (x : Homebrew2015.CommandDataUnion) : Few Py.perItem 2 x.toPy := by
  cases x with
  | typeRepeaterLoginRequest x => exact more (x.toPy_few) (by decide)
  | typeMasterRepeaterAck x => exact more (x.toPy_few) (by decide)
  | typeRepeaterLoginResponse x => exact more (x.toPy_few) (by decide)
  | typeRepeaterConfigurationOrClosing x => exact more (x.toPy_few) (by decide)
  | typeDmrData x => exact more (x.toPy_few) (by decide)
  | typeMasterClosing x => exact more (x.toPy_few) (by decide)
  | typeRepeaterPong x => exact more (x.toPy_few) (by decide)
  | typeMasterPing x => exact more (x.toPy_few) (by decide)
  | typeMasterNotAccept x => exact more (x.toPy_few) (by decide)

theorem Homebrew2015.CommandDataUnion.fifthLetter_few {o : Option Homebrew2015.CommandDataUnion} {v : PyVal} (h : o.bind Homebrew2015.CommandDataUnion.fifthLetter = some v) : Few Py.perItem 0 v := by
  obtain ⟨y, rfl, h1⟩ := Option.bind_eq_some_iff.1 h
  unfold Homebrew2015.CommandDataUnion.fifthLetter at h1
  split at h1 <;> cases h1 <;> exact str _

theorem Homebrew2015.toPy_few (x : Homebrew2015) : Few Py.perItem 3 x.toPy :=
  more (object (
    cons (attr (str _)) <|
    cons (opt_plain fun v h => Homebrew2015.CommandDataUnion.fifthLetter_few h) <|
    cons (opt fun _ => Homebrew2015.CommandDataUnion.toPy_few _) <|
    nil)) (by decide)

end Homebrew

namespace Homebrew

theorem Mmdvm2020.TypeMasterPong.toPy_few (x : Mmdvm2020.TypeMasterPong) : Few Py.perItem 1 x.toPy :=
  more (object (
    cons (attr (bytes _)) <|
    cons (attr (int _)) <|
    nil)) (by decide)

theorem Mmdvm2020.TypeRadioPosition.toPy_few (x : Mmdvm2020.TypeRadioPosition) : Few Py.perItem 1 x.toPy :=
  more (object (
    cons (attr (int _)) <|
    cons (attr (int _)) <|
    cons (attr (enum _ _)) <|
    cons (attr (int _)) <|
    cons (attr (int _)) <|
    nil)) (by decide)

theorem Mmdvm2020.TypeTalkerAlias.toPy_few (x : Mmdvm2020.TypeTalkerAlias) : Few Py.perItem 1 x.toPy :=
  more (object (
    cons (attr (int _)) <|
    cons (attr (enum _ _)) <|
    cons (attr (str _)) <|
    nil)) (by decide)

theorem Mmdvm2020.TypeRepeaterClosing.toPy_few (x : Mmdvm2020.TypeRepeaterClosing) : Few Py.perItem 1 x.toPy :=
  more (object (
    cons (attr (bytes _)) <|
    cons (attr (int _)) <|
    nil)) (by decide)

theorem Mmdvm2020.TypeRepeaterConfiguration.toPy_few (x : Mmdvm2020.TypeRepeaterConfiguration) : Few Py.perItem 1 x.toPy :=
  more (object (
    cons (attr (int _)) <|
    cons (attr (str _)) <|
    cons (attr (str _)) <|
    cons (attr (str _)) <|
    cons (attr (str _)) <|
    cons (attr (str _)) <|
    cons (attr (str _)) <|
    cons (attr (str _)) <|
    cons (attr (str _)) <|
    cons (attr (str _)) <|
    cons (attr (str _)) <|
    cons (attr (str _)) <|
    cons (attr (str _)) <|
    cons (attr (str _)) <|
    cons (attr (str _)) <|
    cons (attr (str _)) <|
    nil)) (by decide)

theorem Mmdvm2020.TypeRepeaterConfigurationOrClosing.DataUnion.toPy_few (x : Mmdvm2020.TypeRepeaterConfigurationOrClosing.DataUnion) : Few Py.perItem 1 x.toPy := by
  cases x with
  | typeRepeaterClosing x => exact more (x.toPy_few) (by decide)
  | typeRepeaterConfiguration x => exact more (x.toPy_few) (by decide)

theorem Mmdvm2020.TypeRepeaterConfigurationOrClosing.toPy_few (x : Mmdvm2020.TypeRepeaterConfigurationOrClosing) : Few Py.perItem 2 x.toPy :=
  more (object (
    cons (attr (Mmdvm2020.TypeRepeaterConfigurationOrClosing.DataUnion.toPy_few _)) <|
    nil)) (by decide)

theorem Mmdvm2020.TypeRepeaterLoginResponse.toPy_few (x : Mmdvm2020.TypeRepeaterLoginResponse) : Few Py.perItem 1 x.toPy :=
  more (object (
    cons (attr (int _)) <|
    cons (attr (bytes _)) <|
    nil)) (by decide)

theorem Mmdvm2020.TypeRepeaterLoginRequest.toPy_few (x : Mmdvm2020.TypeRepeaterLoginRequest) : Few Py.perItem 1 x.toPy :=
  more (object (
    cons (attr (int _)) <|
    nil)) (by decide)

theorem Mmdvm2020.TypeMasterNotAccept.toPy_few (x : Mmdvm2020.TypeMasterNotAccept) : Few Py.perItem 1 x.toPy :=
  more (object (
    cons (attr (bytes _)) <|
    cons (attr (int _)) <|
    nil)) (by decide)

theorem Mmdvm2020.TypeUnknown.toPy_few (x : Mmdvm2020.TypeUnknown) : Few Py.perItem 1 x.toPy :=
  more (object (
    cons (attr (bytes _)) <|
    nil)) (by decide)

theorem Mmdvm2020.TypeMasterRepeaterAck.toPy_few (x : Mmdvm2020.TypeMasterRepeaterAck) : Few Py.perItem 1 x.toPy :=
  more (object (
    cons (attr (bytes _)) <|
    cons (attr (int _)) <|
    nil)) (by decide)

theorem Mmdvm2020.TypeMasterClosing.toPy_few (x : Mmdvm2020.TypeMasterClosing) : Few Py.perItem 1 x.toPy :=
  more (object (
    cons (attr (bytes _)) <|
    cons (attr (int _)) <|
    nil)) (by decide)

theorem Mmdvm2020.TypeDmrData.toPy_few (x : Mmdvm2020.TypeDmrData) : Few Py.perItem 1 x.toPy :=
  more (object (
    cons (attr (int _)) <|
    cons (attr (int _)) <|
    cons (attr (int _)) <|
    cons (attr (int _)) <|
    cons (attr (enum _ _)) <|
    cons (attr (enum _ _)) <|
    cons (attr (enum _ _)) <|
    cons (attr (int _)) <|
    cons (attr (int _)) <|
    cons (attr (bytes _)) <|
    cons (opt fun _ => int _) <|
    cons (opt fun _ => int _) <|
    nil)) (by decide)

theorem Mmdvm2020.TypeRepeaterBeacon.toPy_few (x : Mmdvm2020.TypeRepeaterBeacon) : Few Py.perItem 1 x.toPy :=
  more (object (
    nil)) (by decide)

theorem Mmdvm2020.TypeRepeaterOptions.toPy_few (x : Mmdvm2020.TypeRepeaterOptions) : Few Py.perItem 1 x.toPy :=
  more (object (
    cons (attr (int _)) <|
    cons (attr (str _)) <|
    nil)) (by decide)

theorem Mmdvm2020.TypeRepeaterPing.toPy_few (x : Mmdvm2020.TypeRepeaterPing) : Few Py.perItem 1 x.toPy :=
  more (object (
    cons (attr (bytes _)) <|
    cons (attr (int _)) <|
    nil)) (by decide)

theorem Mmdvm2020.CommandDataUnion.toPy_few (x : Mmdvm2020.CommandDataUnion) : Few Py.perItem 2 x.toPy := by
  cases x with
  | typeRepeaterLoginRequest x => exact more (x.toPy_few) (by decide)
  | typeRadioPosition x => exact more (x.toPy_few) (by decide)
  | typeMasterRepeaterAck x => exact more (x.toPy_few) (by decide)
  | typeRepeaterLoginResponse x => exact more (x.toPy_few) (by decide)
  | typeRepeaterConfigurationOrClosing x => exact more (x.toPy_few) (by decide)
  | typeDmrData x => exact more (x.toPy_few) (by decide)
  | typeMasterClosing x => exact more (x.toPy_few) (by decide)
  | typeRepeaterPing x => exact more (x.toPy_few) (by decide)
  | typeRepeaterOptions x => exact more (x.toPy_few) (by decide)
  | typeMasterPong x => exact more (x.toPy_few) (by decide)
  | typeRepeaterBeacon x => exact more (x.toPy_few) (by decide)
  | typeMasterNotAccept x => exact more (x.toPy_few) (by decide)
  | typeTalkerAlias x => exact more (x.toPy_few) (by decide)

theorem Mmdvm2020.CommandDataUnion.fifthLetter_few {o : Option Mmdvm2020.CommandDataUnion} {v : PyVal} (h : o.bind Mmdvm2020.CommandDataUnion.fifthLetter = some v) : Few Py.perItem 0 v := by
  obtain ⟨y, rfl, h1⟩ := Option.bind_eq_some_iff.1 h
  unfold Mmdvm2020.CommandDataUnion.fifthLetter at h1
  split at h1 <;> cases h1 <;> exact str _

theorem Mmdvm2020.toPy_few (x : Mmdvm2020) : Few Py.perItem 3 x.toPy :=
  more (object (
    cons (attr (str _)) <|
    cons (opt_plain fun v h => Mmdvm2020.CommandDataUnion.fifthLetter_few h) <|
    cons (opt fun _ => Mmdvm2020.CommandDataUnion.toPy_few _) <|
    nil)) (by decide)

end Homebrew

namespace Motorola

theorem AutomaticRegistrationService.MessageHeaderBits.toPy_few (x : AutomaticRegistrationService.MessageHeaderBits) : Few Py.perItem 1 x.toPy :=
  more (object (
    cons (attr (bool _)) <|
    cons (attr (bool _)) <|
    cons (attr (bool _)) <|
    cons (attr (bool _)) <|
    cons (attr (int _)) <|
    nil)) (by decide)

theorem AutomaticRegistrationService.DeviceRegistrationAcknowledgementHeader.toPy_few (x : AutomaticRegistrationService.DeviceRegistrationAcknowledgementHeader) : Few Py.perItem 1 x.toPy :=
  more (object (
    cons (attr (bool _)) <|
    cons (attr (int _)) <|
    nil)) (by decide)

theorem AutomaticRegistrationService.DeviceRegistrationAcknowledgementFailureReason.toPy_few (x : AutomaticRegistrationService.DeviceRegistrationAcknowledgementFailureReason) : Few Py.perItem 1 x.toPy :=
  more (object (
    cons (attr (bool _)) <|
    cons (attr (enum _ _)) <|
    nil)) (by decide)

theorem AutomaticRegistrationService.AcknowledgementMessage.toPy_few (x : AutomaticRegistrationService.AcknowledgementMessage) : Few Py.perItem 3 x.toPy :=
  more (object (
    cons (opt fun _ => AutomaticRegistrationService.DeviceRegistrationAcknowledgementHeader.toPy_few _) <|
    cons (opt fun _ => AutomaticRegistrationService.DeviceRegistrationAcknowledgementFailureReason.toPy_few _) <|
    nil)) (by decide)

theorem AutomaticRegistrationService.DeviceRegistrationMessageHeader.toPy_few (x : AutomaticRegistrationService.DeviceRegistrationMessageHeader) : Few Py.perItem 1 x.toPy :=
  more (object (
    cons (attr (bool _)) <|
    cons (attr (enum _ _)) <|
    cons (attr (int _)) <|
    nil)) (by decide)

theorem AutomaticRegistrationService.DeviceDeregistrationMessage.toPy_few (x : AutomaticRegistrationService.DeviceDeregistrationMessage) : Few Py.perItem 1 x.toPy :=
  more (object (
    nil)) (by decide)

theorem AutomaticRegistrationService.DeviceRegistrationMessage.toPy_few (x : AutomaticRegistrationService.DeviceRegistrationMessage) : Few Py.perItem 2 x.toPy :=
  more (object (
    cons (opt fun _ => AutomaticRegistrationService.DeviceRegistrationMessageHeader.toPy_few _) <|
    cons (attr (int _)) <|
    cons (opt fun _ => bytes _) <|
    cons (attr (int _)) <|
    cons (opt fun _ => bytes _) <|
    cons (attr (int _)) <|
    cons (opt fun _ => bytes _) <|
    nil)) (by decide)

theorem AutomaticRegistrationService.ArsQueryMessage.toPy_few (x : AutomaticRegistrationService.ArsQueryMessage) : Few Py.perItem 1 x.toPy :=
  more (object (
    nil)) (by decide)

theorem AutomaticRegistrationService.PduContentUnion.toPy_few (x : AutomaticRegistrationService.PduContentUnion) : Few Py.perItem 3 x.toPy := by
  cases x with
  | deviceRegistrationMessage x => exact more (x.toPy_few) (by decide)
  | deviceDeregistrationMessage x => exact more (x.toPy_few) (by decide)
  | arsQueryMessage x => exact more (x.toPy_few) (by decide)
  | acknowledgementMessage x => exact more (x.toPy_few) (by decide)

theorem AutomaticRegistrationService.toPy_few (x : AutomaticRegistrationService) : Few Py.perItem 5 x.toPy :=
  more (object (
    cons (attr (int _)) <|
    cons (attr (AutomaticRegistrationService.MessageHeaderBits.toPy_few _)) <|
    cons (opt fun _ => AutomaticRegistrationService.PduContentUnion.toPy_few _) <|
    cons (attr (bytes _)) <|
    nil)) (by decide)

end Motorola

namespace Motorola

theorem MotorolaBinaryXml.OpaqueElementValue.toPy_few (x : MotorolaBinaryXml.OpaqueElementValue) : Few Py.perItem 1 x.toPy :=
  more (object (
    cons (attr (int _)) <|
    cons (attr (bytes _)) <|
    nil)) (by decide)

theorem MotorolaBinaryXml.Opaque1byteValue.toPy_few (x : MotorolaBinaryXml.Opaque1byteValue) : Few Py.perItem 1 x.toPy :=
  more (object (
    cons (attr (bytes _)) <|
    nil)) (by decide)

theorem MotorolaBinaryXml.Uintvar.toPy_few (x : MotorolaBinaryXml.Uintvar) : Few Py.perItem 1 x.toPy :=
  more (object (
    cons (attr (list (c := 0) (by decide) (fun _ => int _) _)) <|
    nil)) (by decide)

theorem MotorolaBinaryXml.ConstantDataTableReference.toPy_few (x : MotorolaBinaryXml.ConstantDataTableReference) : Few Py.perItem 2 x.toPy :=
  more (object (
    cons (attr (MotorolaBinaryXml.Uintvar.toPy_few _)) <|
    nil)) (by decide)

theorem MotorolaBinaryXml.LrrpElement.LrrpElementDataUnion.toPy_few (x : MotorolaBinaryXml.LrrpElement.LrrpElementDataUnion) : Few Py.perItem 2 x.toPy := by
  cases x with
  | opaqueElementValue x => exact more (x.toPy_few) (by decide)
  | opaque1byteValue x => exact more (x.toPy_few) (by decide)
  | constantDataTableReference x => exact more (x.toPy_few) (by decide)

theorem MotorolaBinaryXml.LrrpElement.toPy_few (x : MotorolaBinaryXml.LrrpElement) : Few Py.perItem 3 x.toPy :=
  more (object (
    cons (attr (enum _ _)) <|
    cons (opt fun _ => MotorolaBinaryXml.LrrpElement.LrrpElementDataUnion.toPy_few _) <|
    nil)) (by decide)

theorem MotorolaBinaryXml.LrrpImmediateRequestNcdt.toPy_few (x : MotorolaBinaryXml.LrrpImmediateRequestNcdt) : Few Py.perItem 4 x.toPy :=
  more (object (
    cons (attr (MotorolaBinaryXml.LrrpElement.toPy_few _)) <|
    nil)) (by decide)

theorem MotorolaBinaryXml.Opaque3byteValue.toPy_few (x : MotorolaBinaryXml.Opaque3byteValue) : Few Py.perItem 1 x.toPy :=
  more (object (
    cons (attr (bytes _)) <|
    nil)) (by decide)

theorem MotorolaBinaryXml.Sintvar.toPy_few (x : MotorolaBinaryXml.Sintvar) : Few Py.perItem 1 x.toPy :=
  more (object (
    cons (attr (list (c := 0) (by decide) (fun _ => int _) _)) <|
    nil)) (by decide)

theorem MotorolaBinaryXml.Sfloatvar.toPy_few (x : MotorolaBinaryXml.Sfloatvar) : Few Py.perItem 3 x.toPy :=
  more (object (
    cons (attr (MotorolaBinaryXml.Sintvar.toPy_few _)) <|
    cons (attr (MotorolaBinaryXml.Uintvar.toPy_few _)) <|
    nil)) (by decide)

theorem MotorolaBinaryXml.Opaque5byteValue.toPy_few (x : MotorolaBinaryXml.Opaque5byteValue) : Few Py.perItem 1 x.toPy :=
  more (object (
    cons (attr (bytes _)) <|
    nil)) (by decide)

theorem MotorolaBinaryXml.Ufloatvar.toPy_few (x : MotorolaBinaryXml.Ufloatvar) : Few Py.perItem 3 x.toPy :=
  more (object (
    cons (attr (MotorolaBinaryXml.Uintvar.toPy_few _)) <|
    cons (attr (MotorolaBinaryXml.Uintvar.toPy_few _)) <|
    nil)) (by decide)

theorem MotorolaBinaryXml.MbxmlDocument.DocumentDataUnion.toPy_few (x : MotorolaBinaryXml.MbxmlDocument.DocumentDataUnion) : Few Py.perItem 4 x.toPy := by
  cases x with
  | lrrpImmediateRequestNcdt x => exact more (x.toPy_few) (by decide)

theorem MotorolaBinaryXml.MbxmlDocument.toPy_few (x : MotorolaBinaryXml.MbxmlDocument) : Few Py.perItem 6 x.toPy :=
  more (object (
    cons (attr (enum _ _)) <|
    cons (attr (MotorolaBinaryXml.Uintvar.toPy_few _)) <|
    cons (opt fun _ => MotorolaBinaryXml.MbxmlDocument.DocumentDataUnion.toPy_few _) <|
    nil)) (by decide)

theorem MotorolaBinaryXml.Opaque2byteValue.toPy_few (x : MotorolaBinaryXml.Opaque2byteValue) : Few Py.perItem 1 x.toPy :=
  more (object (
    cons (attr (bytes _)) <|
    nil)) (by decide)

theorem MotorolaBinaryXml.Opaque4byteValue.toPy_few (x : MotorolaBinaryXml.Opaque4byteValue) : Few Py.perItem 1 x.toPy :=
  more (object (
    cons (attr (bytes _)) <|
    nil)) (by decide)

theorem MotorolaBinaryXml.toPy_few (x : MotorolaBinaryXml) : Few Py.perItem 1 x.toPy :=
  more (object (
    cons (attr (list (c := 6) (by decide) (fun _ => MotorolaBinaryXml.MbxmlDocument.toPy_few _) _)) <|
    nil)) (by decide)

end Motorola

namespace Motorola

theorem TextMessageProtocol.MessageHeaderBits.toPy_few (x : TextMessageProtocol.MessageHeaderBits) : Few Py.perItem 1 x.toPy :=
  more (object (
    cons (attr (bool _)) <|
    cons (attr (bool _)) <|
    cons (attr (bool _)) <|
    cons (attr (bool _)) <|
    cons (attr (int _)) <|
    nil)) (by decide)

theorem TextMessageProtocol.TextMessageHeaderSequenceAndEncoding.toPy_few (x : TextMessageProtocol.TextMessageHeaderSequenceAndEncoding) : Few Py.perItem 1 x.toPy :=
  more (object (
    cons (attr (bool _)) <|
    cons (attr (int _)) <|
    cons (attr (int _)) <|
    cons (opt fun _ => bool _) <|
    cons (opt fun _ => int _) <|
    cons (attr (int _)) <|
    nil)) (by decide)

theorem TextMessageProtocol.TextMessage.toPy_few (x : TextMessageProtocol.TextMessage) : Few Py.perItem 2 x.toPy :=
  more (object (
    cons (opt fun _ => TextMessageProtocol.TextMessageHeaderSequenceAndEncoding.toPy_few _) <|
    cons (attr (str _)) <|
    nil)) (by decide)

theorem TextMessageProtocol.TmsServiceAvailabilityHeader.toPy_few (x : TextMessageProtocol.TmsServiceAvailabilityHeader) : Few Py.perItem 1 x.toPy :=
  more (object (
    cons (attr (bool _)) <|
    cons (attr (int _)) <|
    cons (attr (enum _ _)) <|
    nil)) (by decide)

theorem TextMessageProtocol.TmsServiceAvailability.toPy_few (x : TextMessageProtocol.TmsServiceAvailability) : Few Py.perItem 2 x.toPy :=
  more (object (
    cons (opt fun _ => TextMessageProtocol.TmsServiceAvailabilityHeader.toPy_few _) <|
    nil)) (by decide)

theorem TextMessageProtocol.TmsAcknowledgementHeaderSequenceNumber.toPy_few (x : TextMessageProtocol.TmsAcknowledgementHeaderSequenceNumber) : Few Py.perItem 1 x.toPy :=
  more (object (
    cons (attr (bool _)) <|
    cons (attr (int _)) <|
    cons (attr (int _)) <|
    cons (opt fun _ => bool _) <|
    cons (opt fun _ => int _) <|
    cons (opt fun _ => int _) <|
    nil)) (by decide)

theorem TextMessageProtocol.TmsAcknowledgement.toPy_few (x : TextMessageProtocol.TmsAcknowledgement) : Few Py.perItem 2 x.toPy :=
  more (object (
    cons (opt fun _ => TextMessageProtocol.TmsAcknowledgementHeaderSequenceNumber.toPy_few _) <|
    nil)) (by decide)

theorem TextMessageProtocol.TmsServiceAvailabilityAcknowledgement.toPy_few (x : TextMessageProtocol.TmsServiceAvailabilityAcknowledgement) : Few Py.perItem 1 x.toPy :=
  more (object (
    nil)) (by decide)

theorem TextMessageProtocol.PduContentUnion.toPy_few (x : TextMessageProtocol.PduContentUnion) : Few Py.perItem 2 x.toPy := by
  cases x with
  | tmsServiceAvailability x => exact more (x.toPy_few) (by decide)
  | tmsAcknowledgement x => exact more (x.toPy_few) (by decide)
  | textMessage x => exact more (x.toPy_few) (by decide)

theorem TextMessageProtocol.toPy_few (x : TextMessageProtocol) : Few Py.perItem 4 x.toPy :=
  more (object (
    cons (attr (int _)) <|
    cons (attr (TextMessageProtocol.MessageHeaderBits.toPy_few _)) <|
    cons (attr (int _)) <|
    cons (opt fun _ => bytes _) <|
    cons (attr (int _)) <|
    cons (opt fun _ => TextMessageProtocol.PduContentUnion.toPy_few _) <|
    cons (attr (bytes _)) <|
    nil)) (by decide)

end Motorola

end Dmr
