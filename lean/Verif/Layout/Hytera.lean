import Verif.Layout
import Verif.Spec.Hytera
import Verif.Enums
/-
The Hytera decoders read fields where `Verif/Spec/Hytera.lean` says they are.
-/

namespace Dmr.Hytera

fixed_layout RadioIp 4
fixed_layout RadioId 4
fixed_layout Gpsdata 40
fixed_layout DataDeliveryStates 11
fixed_layout DataTransmitProtocol.LastDataSlice 8
fixed_layout DataTransmitProtocol.DataSliceAnswer 11
fixed_layout DataTransmitProtocol.LastDataSliceAnswer 9
fixed_layout DataTransmitProtocol.DtpAnswer 9
fixed_layout LocationProtocol.TriggeredReportStopAnswer 10
fixed_layout LocationProtocol.ConditionReport 48
fixed_layout LocationProtocol.EmergencyReport 45
fixed_layout LocationProtocol.TriggeredReportAnswer 10
fixed_layout LocationProtocol.StandardAnswerWithRssi 52
fixed_layout LocationProtocol.StandardRequest 8
fixed_layout LocationProtocol.StandardAnswer 50
fixed_layout LocationProtocol.ConditionReportAnswer 11
fixed_layout LocationProtocol.EmergencyReportStopRequest 8
fixed_layout LocationProtocol.ConditionQuickGpsAnswer 11
fixed_layout LocationProtocol.ConditionReportWithRssi 52
fixed_layout LocationProtocol.EmergencyReportStopAnswer 10
fixed_layout LocationProtocol.TriggeredReportStopRequest 8
fixed_layout RadioControlProtocol.BroadcastStatusConfigurationReply 1
fixed_layout RadioControlProtocol.BroadcastConfiguration 2
fixed_layout RadioControlProtocol.CallRequest 5
fixed_layout RadioControlProtocol.RemoveRadioReply 1
fixed_layout RadioControlProtocol.CallReply 1
fixed_layout TelemetryProtocol.StandardStatusReport 12
fixed_layout TelemetryProtocol.RemoteControlAnswer 12
fixed_layout TelemetryProtocol.RemoteControlRequest 12
fixed_layout TelemetryProtocol.StandardStatusRequest 11
fixed_layout RealTimeTransportProtocol.HeaderExtension 18

end Dmr.Hytera
