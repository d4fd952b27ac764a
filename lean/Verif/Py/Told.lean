import Verif.Py.Table
import Verif.Py.Shown
import Verif.Py.FewLibrary
/-
Generated by tools/mkpytable.py: for every class with a model, the model object can be told from the attributes, all objects have the
attributes that constructors assign, and there are few.
-/

set_option autoImplicit false

namespace Dmr.Py

open Graph (regular)

/-- What is said of a row of the table. -/
def Told (row : String × Option Reader) : Prop :=
  match row.2 with
  | none => True
  | some R => (∀ x y, R.toPy x = R.toPy y → x = y) ∧ (∀ x, regular (R.toPy x)) ∧ ∀ x, Few.Few perItem 9 (R.toPy x)

theorem hyteraDataDeliveryStates_told : Each Told hyteraDataDeliveryStates :=
  ⟨⟨fun _ _ => Hytera.DataDeliveryStates.toPy_inj, Hytera.DataDeliveryStates.toPy_regular, fun x => Few.more (Hytera.DataDeliveryStates.toPy_few x) (by decide)⟩, trivial⟩

theorem hyteraDataTransmitProtocol_told : Each Told hyteraDataTransmitProtocol :=
  ⟨⟨fun _ _ => Hytera.DataTransmitProtocol.LastDataSlice.toPy_inj, Hytera.DataTransmitProtocol.LastDataSlice.toPy_regular, fun x => Few.more (Hytera.DataTransmitProtocol.LastDataSlice.toPy_few x) (by decide)⟩, trivial, ⟨fun _ _ => Hytera.DataTransmitProtocol.DataSliceAnswer.toPy_inj, Hytera.DataTransmitProtocol.DataSliceAnswer.toPy_regular, fun x => Few.more (Hytera.DataTransmitProtocol.DataSliceAnswer.toPy_few x) (by decide)⟩, trivial, ⟨fun _ _ => Hytera.DataTransmitProtocol.LastDataSliceAnswer.toPy_inj, Hytera.DataTransmitProtocol.LastDataSliceAnswer.toPy_regular, fun x => Few.more (Hytera.DataTransmitProtocol.LastDataSliceAnswer.toPy_few x) (by decide)⟩, ⟨fun _ _ => Hytera.DataTransmitProtocol.DtpAnswer.toPy_inj, Hytera.DataTransmitProtocol.DtpAnswer.toPy_regular, fun x => Few.more (Hytera.DataTransmitProtocol.DtpAnswer.toPy_few x) (by decide)⟩, ⟨fun _ _ => Hytera.DataTransmitProtocol.toPy_inj, Hytera.DataTransmitProtocol.toPy_regular, fun x => Few.more (Hytera.DataTransmitProtocol.toPy_few x) (by decide)⟩, trivial⟩

theorem hyteraDatetimestring_told : Each Told hyteraDatetimestring :=
  ⟨⟨fun _ _ => Hytera.Datetimestring.toPy_inj, Hytera.Datetimestring.toPy_regular, fun x => Few.more (Hytera.Datetimestring.toPy_few x) (by decide)⟩, trivial⟩

theorem hyteraGpsdata_told : Each Told hyteraGpsdata :=
  ⟨⟨fun _ _ => Hytera.Gpsdata.toPy_inj, Hytera.Gpsdata.toPy_regular, fun x => Few.more (Hytera.Gpsdata.toPy_few x) (by decide)⟩, trivial⟩

theorem hyteraHyteraDmrApplicationProtocol_told : Each Told hyteraHyteraDmrApplicationProtocol :=
  ⟨⟨fun _ _ => Hytera.HyteraDmrApplicationProtocol.UndefinedProtocol.toPy_inj, Hytera.HyteraDmrApplicationProtocol.UndefinedProtocol.toPy_regular, fun x => Few.more (Hytera.HyteraDmrApplicationProtocol.UndefinedProtocol.toPy_few x) (by decide)⟩, ⟨fun _ _ => Hytera.HyteraDmrApplicationProtocol.toPy_inj, Hytera.HyteraDmrApplicationProtocol.toPy_regular, fun x => Few.more (Hytera.HyteraDmrApplicationProtocol.toPy_few x) (by decide)⟩, trivial⟩

theorem hyteraHyteraRadioNetworkProtocol_told : Each Told hyteraHyteraRadioNetworkProtocol :=
  ⟨⟨fun _ _ => Hytera.HyteraRadioNetworkProtocol.toPy_inj, Hytera.HyteraRadioNetworkProtocol.toPy_regular, fun x => Few.more (Hytera.HyteraRadioNetworkProtocol.toPy_few x) (by decide)⟩, trivial⟩

theorem hyteraHyteraSimpleTransportReliabilityProtocol_told : Each Told hyteraHyteraSimpleTransportReliabilityProtocol :=
  ⟨⟨fun _ _ => Hytera.HyteraSimpleTransportReliabilityProtocol.Option.toPy_inj, Hytera.HyteraSimpleTransportReliabilityProtocol.Option.toPy_regular, fun x => Few.more (Hytera.HyteraSimpleTransportReliabilityProtocol.Option.toPy_few x) (by decide)⟩, ⟨fun _ _ => Hytera.HyteraSimpleTransportReliabilityProtocol.toPy_inj, Hytera.HyteraSimpleTransportReliabilityProtocol.toPy_regular, fun x => Few.more (Hytera.HyteraSimpleTransportReliabilityProtocol.toPy_few x) (by decide)⟩, trivial⟩

theorem hyteraIntervalstring_told : Each Told hyteraIntervalstring :=
  ⟨⟨fun _ _ => Hytera.Intervalstring.toPy_inj, Hytera.Intervalstring.toPy_regular, fun x => Few.more (Hytera.Intervalstring.toPy_few x) (by decide)⟩, trivial⟩

theorem hyteraIpSiteConnectHeartbeat_told : Each Told hyteraIpSiteConnectHeartbeat :=
  ⟨⟨fun _ _ => Hytera.IpSiteConnectHeartbeat.Keepalive.toPy_inj, Hytera.IpSiteConnectHeartbeat.Keepalive.toPy_regular, fun x => Few.more (Hytera.IpSiteConnectHeartbeat.Keepalive.toPy_few x) (by decide)⟩, ⟨fun _ _ => Hytera.IpSiteConnectHeartbeat.PingPong.toPy_inj, Hytera.IpSiteConnectHeartbeat.PingPong.toPy_regular, fun x => Few.more (Hytera.IpSiteConnectHeartbeat.PingPong.toPy_few x) (by decide)⟩, ⟨fun _ _ => Hytera.IpSiteConnectHeartbeat.Unknown.toPy_inj, Hytera.IpSiteConnectHeartbeat.Unknown.toPy_regular, fun x => Few.more (Hytera.IpSiteConnectHeartbeat.Unknown.toPy_few x) (by decide)⟩, ⟨fun _ _ => Hytera.IpSiteConnectHeartbeat.toPy_inj, Hytera.IpSiteConnectHeartbeat.toPy_regular, fun x => Few.more (Hytera.IpSiteConnectHeartbeat.toPy_few x) (by decide)⟩, trivial⟩

theorem hyteraIpSiteConnectProtocol_told : Each Told hyteraIpSiteConnectProtocol :=
  ⟨⟨fun _ _ => Hytera.IpSiteConnectProtocol.toPy_inj, Hytera.IpSiteConnectProtocol.toPy_regular, fun x => Few.more (Hytera.IpSiteConnectProtocol.toPy_few x) (by decide)⟩, trivial⟩

theorem hyteraLocationProtocol_told : Each Told hyteraLocationProtocol :=
  ⟨⟨fun _ _ => Hytera.LocationProtocol.TriggeredReportStopAnswer.toPy_inj, Hytera.LocationProtocol.TriggeredReportStopAnswer.toPy_regular, fun x => Few.more (Hytera.LocationProtocol.TriggeredReportStopAnswer.toPy_few x) (by decide)⟩, ⟨fun _ _ => Hytera.LocationProtocol.ConditionReportRequest.toPy_inj, Hytera.LocationProtocol.ConditionReportRequest.toPy_regular, fun x => Few.more (Hytera.LocationProtocol.ConditionReportRequest.toPy_few x) (by decide)⟩, ⟨fun _ _ => Hytera.LocationProtocol.ConditionQuickGpsRequest.toPy_inj, Hytera.LocationProtocol.ConditionQuickGpsRequest.toPy_regular, fun x => Few.more (Hytera.LocationProtocol.ConditionQuickGpsRequest.toPy_few x) (by decide)⟩, ⟨fun _ _ => Hytera.LocationProtocol.ConditionReport.toPy_inj, Hytera.LocationProtocol.ConditionReport.toPy_regular, fun x => Few.more (Hytera.LocationProtocol.ConditionReport.toPy_few x) (by decide)⟩, ⟨fun _ _ => Hytera.LocationProtocol.EmergencyReport.toPy_inj, Hytera.LocationProtocol.EmergencyReport.toPy_regular, fun x => Few.more (Hytera.LocationProtocol.EmergencyReport.toPy_few x) (by decide)⟩, ⟨fun _ _ => Hytera.LocationProtocol.TriggeredReportAnswer.toPy_inj, Hytera.LocationProtocol.TriggeredReportAnswer.toPy_regular, fun x => Few.more (Hytera.LocationProtocol.TriggeredReportAnswer.toPy_few x) (by decide)⟩, ⟨fun _ _ => Hytera.LocationProtocol.StandardAnswerWithRssi.toPy_inj, Hytera.LocationProtocol.StandardAnswerWithRssi.toPy_regular, fun x => Few.more (Hytera.LocationProtocol.StandardAnswerWithRssi.toPy_few x) (by decide)⟩, ⟨fun _ _ => Hytera.LocationProtocol.QuickGpsPayload.toPy_inj, Hytera.LocationProtocol.QuickGpsPayload.toPy_regular, fun x => Few.more (Hytera.LocationProtocol.QuickGpsPayload.toPy_few x) (by decide)⟩, ⟨fun _ _ => Hytera.LocationProtocol.StandardRequest.toPy_inj, Hytera.LocationProtocol.StandardRequest.toPy_regular, fun x => Few.more (Hytera.LocationProtocol.StandardRequest.toPy_few x) (by decide)⟩, ⟨fun _ _ => Hytera.LocationProtocol.TriggeredReportRequest.toPy_inj, Hytera.LocationProtocol.TriggeredReportRequest.toPy_regular, fun x => Few.more (Hytera.LocationProtocol.TriggeredReportRequest.toPy_few x) (by decide)⟩, ⟨fun _ _ => Hytera.LocationProtocol.StandardAnswer.toPy_inj, Hytera.LocationProtocol.StandardAnswer.toPy_regular, fun x => Few.more (Hytera.LocationProtocol.StandardAnswer.toPy_few x) (by decide)⟩, ⟨fun _ _ => Hytera.LocationProtocol.ConditionReportAnswer.toPy_inj, Hytera.LocationProtocol.ConditionReportAnswer.toPy_regular, fun x => Few.more (Hytera.LocationProtocol.ConditionReportAnswer.toPy_few x) (by decide)⟩, ⟨fun _ _ => Hytera.LocationProtocol.EmergencyReportStopRequest.toPy_inj, Hytera.LocationProtocol.EmergencyReportStopRequest.toPy_regular, fun x => Few.more (Hytera.LocationProtocol.EmergencyReportStopRequest.toPy_few x) (by decide)⟩, ⟨fun _ _ => Hytera.LocationProtocol.ConditionQuickGpsAnswer.toPy_inj, Hytera.LocationProtocol.ConditionQuickGpsAnswer.toPy_regular, fun x => Few.more (Hytera.LocationProtocol.ConditionQuickGpsAnswer.toPy_few x) (by decide)⟩, ⟨fun _ _ => Hytera.LocationProtocol.TriggeredReport.toPy_inj, Hytera.LocationProtocol.TriggeredReport.toPy_regular, fun x => Few.more (Hytera.LocationProtocol.TriggeredReport.toPy_few x) (by decide)⟩, ⟨fun _ _ => Hytera.LocationProtocol.ConditionReportWithRssi.toPy_inj, Hytera.LocationProtocol.ConditionReportWithRssi.toPy_regular, fun x => Few.more (Hytera.LocationProtocol.ConditionReportWithRssi.toPy_few x) (by decide)⟩, ⟨fun _ _ => Hytera.LocationProtocol.EmergencyReportStopAnswer.toPy_inj, Hytera.LocationProtocol.EmergencyReportStopAnswer.toPy_regular, fun x => Few.more (Hytera.LocationProtocol.EmergencyReportStopAnswer.toPy_few x) (by decide)⟩, ⟨fun _ _ => Hytera.LocationProtocol.TriggeredReportStopRequest.toPy_inj, Hytera.LocationProtocol.TriggeredReportStopRequest.toPy_regular, fun x => Few.more (Hytera.LocationProtocol.TriggeredReportStopRequest.toPy_few x) (by decide)⟩, ⟨fun _ _ => Hytera.LocationProtocol.toPy_inj, Hytera.LocationProtocol.toPy_regular, fun x => Few.more (Hytera.LocationProtocol.toPy_few x) (by decide)⟩, trivial⟩

theorem hyteraRadioControlProtocol_told : Each Told hyteraRadioControlProtocol :=
  ⟨⟨fun _ _ => Hytera.RadioControlProtocol.BroadcastStatusConfigurationReply.toPy_inj, Hytera.RadioControlProtocol.BroadcastStatusConfigurationReply.toPy_regular, fun x => Few.more (Hytera.RadioControlProtocol.BroadcastStatusConfigurationReply.toPy_few x) (by decide)⟩, ⟨fun _ _ => Hytera.RadioControlProtocol.BroadcastConfiguration.toPy_inj, Hytera.RadioControlProtocol.BroadcastConfiguration.toPy_regular, fun x => Few.more (Hytera.RadioControlProtocol.BroadcastConfiguration.toPy_few x) (by decide)⟩, ⟨fun _ _ => Hytera.RadioControlProtocol.BroadcastStatusConfigurationRequest.toPy_inj, Hytera.RadioControlProtocol.BroadcastStatusConfigurationRequest.toPy_regular, fun x => Few.more (Hytera.RadioControlProtocol.BroadcastStatusConfigurationRequest.toPy_few x) (by decide)⟩, trivial, trivial, ⟨fun _ _ => Hytera.RadioControlProtocol.CallRequest.toPy_inj, Hytera.RadioControlProtocol.CallRequest.toPy_regular, fun x => Few.more (Hytera.RadioControlProtocol.CallRequest.toPy_few x) (by decide)⟩, ⟨fun _ _ => Hytera.RadioControlProtocol.RemoveRadioReply.toPy_inj, Hytera.RadioControlProtocol.RemoveRadioReply.toPy_regular, fun x => Few.more (Hytera.RadioControlProtocol.RemoveRadioReply.toPy_few x) (by decide)⟩, ⟨fun _ _ => Hytera.RadioControlProtocol.RemoveRadioRequest.toPy_inj, Hytera.RadioControlProtocol.RemoveRadioRequest.toPy_regular, fun x => Few.more (Hytera.RadioControlProtocol.RemoveRadioRequest.toPy_few x) (by decide)⟩, ⟨fun _ _ => Hytera.RadioControlProtocol.CallReply.toPy_inj, Hytera.RadioControlProtocol.CallReply.toPy_regular, fun x => Few.more (Hytera.RadioControlProtocol.CallReply.toPy_few x) (by decide)⟩, ⟨fun _ _ => Hytera.RadioControlProtocol.toPy_inj, Hytera.RadioControlProtocol.toPy_regular, fun x => Few.more (Hytera.RadioControlProtocol.toPy_few x) (by decide)⟩, trivial⟩

theorem hyteraRadioId_told : Each Told hyteraRadioId :=
  ⟨⟨fun _ _ => Hytera.RadioId.toPy_inj, Hytera.RadioId.toPy_regular, fun x => Few.more (Hytera.RadioId.toPy_few x) (by decide)⟩, trivial⟩

theorem hyteraRadioIp_told : Each Told hyteraRadioIp :=
  ⟨⟨fun _ _ => Hytera.RadioIp.toPy_inj, Hytera.RadioIp.toPy_regular, fun x => Few.more (Hytera.RadioIp.toPy_few x) (by decide)⟩, trivial⟩

theorem hyteraRadioRegistrationService_told : Each Told hyteraRadioRegistrationService :=
  ⟨⟨fun _ _ => Hytera.RadioRegistrationService.toPy_inj, Hytera.RadioRegistrationService.toPy_regular, fun x => Few.more (Hytera.RadioRegistrationService.toPy_few x) (by decide)⟩, trivial⟩

theorem hyteraRealTimeTransportProtocol_told : Each Told hyteraRealTimeTransportProtocol :=
  ⟨⟨fun _ _ => Hytera.RealTimeTransportProtocol.FixedHeader.toPy_inj, Hytera.RealTimeTransportProtocol.FixedHeader.toPy_regular, fun x => Few.more (Hytera.RealTimeTransportProtocol.FixedHeader.toPy_few x) (by decide)⟩, ⟨fun _ _ => Hytera.RealTimeTransportProtocol.HeaderExtension.toPy_inj, Hytera.RealTimeTransportProtocol.HeaderExtension.toPy_regular, fun x => Few.more (Hytera.RealTimeTransportProtocol.HeaderExtension.toPy_few x) (by decide)⟩, ⟨fun _ _ => Hytera.RealTimeTransportProtocol.toPy_inj, Hytera.RealTimeTransportProtocol.toPy_regular, fun x => Few.more (Hytera.RealTimeTransportProtocol.toPy_few x) (by decide)⟩, trivial⟩

theorem hyteraTelemetryProtocol_told : Each Told hyteraTelemetryProtocol :=
  ⟨⟨fun _ _ => Hytera.TelemetryProtocol.StandardStatusReport.toPy_inj, Hytera.TelemetryProtocol.StandardStatusReport.toPy_regular, fun x => Few.more (Hytera.TelemetryProtocol.StandardStatusReport.toPy_few x) (by decide)⟩, ⟨fun _ _ => Hytera.TelemetryProtocol.VioExtendedStatus.toPy_inj, Hytera.TelemetryProtocol.VioExtendedStatus.toPy_regular, fun x => Few.more (Hytera.TelemetryProtocol.VioExtendedStatus.toPy_few x) (by decide)⟩, ⟨fun _ _ => Hytera.TelemetryProtocol.RemoteControlAnswer.toPy_inj, Hytera.TelemetryProtocol.RemoteControlAnswer.toPy_regular, fun x => Few.more (Hytera.TelemetryProtocol.RemoteControlAnswer.toPy_few x) (by decide)⟩, ⟨fun _ _ => Hytera.TelemetryProtocol.RemoteControlRequest.toPy_inj, Hytera.TelemetryProtocol.RemoteControlRequest.toPy_regular, fun x => Few.more (Hytera.TelemetryProtocol.RemoteControlRequest.toPy_few x) (by decide)⟩, ⟨fun _ _ => Hytera.TelemetryProtocol.ExtendedStatusReport.toPy_inj, Hytera.TelemetryProtocol.ExtendedStatusReport.toPy_regular, fun x => Few.more (Hytera.TelemetryProtocol.ExtendedStatusReport.toPy_few x) (by decide)⟩, ⟨fun _ _ => Hytera.TelemetryProtocol.StandardStatusRequest.toPy_inj, Hytera.TelemetryProtocol.StandardStatusRequest.toPy_regular, fun x => Few.more (Hytera.TelemetryProtocol.StandardStatusRequest.toPy_few x) (by decide)⟩, ⟨fun _ _ => Hytera.TelemetryProtocol.toPy_inj, Hytera.TelemetryProtocol.toPy_regular, fun x => Few.more (Hytera.TelemetryProtocol.toPy_few x) (by decide)⟩, trivial⟩

theorem hyteraTextMessageProtocol_told : Each Told hyteraTextMessageProtocol :=
  ⟨⟨fun _ _ => Hytera.TextMessageProtocol.toPy_inj, Hytera.TextMessageProtocol.toPy_regular, fun x => Few.more (Hytera.TextMessageProtocol.toPy_few x) (by decide)⟩, trivial⟩

theorem etsiDmrCsbk_told : Each Told etsiDmrCsbk :=
  ⟨⟨fun _ _ => Etsi.DmrCsbk.NegativeAckResponseData.toPy_inj, Etsi.DmrCsbk.NegativeAckResponseData.toPy_regular, fun x => Few.more (Etsi.DmrCsbk.NegativeAckResponseData.toPy_few x) (by decide)⟩, ⟨fun _ _ => Etsi.DmrCsbk.UnitToUnitVoiceRequestData.toPy_inj, Etsi.DmrCsbk.UnitToUnitVoiceRequestData.toPy_regular, fun x => Few.more (Etsi.DmrCsbk.UnitToUnitVoiceRequestData.toPy_few x) (by decide)⟩, ⟨fun _ _ => Etsi.DmrCsbk.ServiceOptions.toPy_inj, Etsi.DmrCsbk.ServiceOptions.toPy_regular, fun x => Few.more (Etsi.DmrCsbk.ServiceOptions.toPy_few x) (by decide)⟩, ⟨fun _ _ => Etsi.DmrCsbk.PreambleData.toPy_inj, Etsi.DmrCsbk.PreambleData.toPy_regular, fun x => Few.more (Etsi.DmrCsbk.PreambleData.toPy_few x) (by decide)⟩, ⟨fun _ _ => Etsi.DmrCsbk.ChannelTimingData.toPy_inj, Etsi.DmrCsbk.ChannelTimingData.toPy_regular, fun x => Few.more (Etsi.DmrCsbk.ChannelTimingData.toPy_few x) (by decide)⟩, ⟨fun _ _ => Etsi.DmrCsbk.BsOutboundActivationData.toPy_inj, Etsi.DmrCsbk.BsOutboundActivationData.toPy_regular, fun x => Few.more (Etsi.DmrCsbk.BsOutboundActivationData.toPy_few x) (by decide)⟩, ⟨fun _ _ => Etsi.DmrCsbk.UnitToUnitVoiceAnswerData.toPy_inj, Etsi.DmrCsbk.UnitToUnitVoiceAnswerData.toPy_regular, fun x => Few.more (Etsi.DmrCsbk.UnitToUnitVoiceAnswerData.toPy_few x) (by decide)⟩, ⟨fun _ _ => Etsi.DmrCsbk.toPy_inj, Etsi.DmrCsbk.toPy_regular, fun x => Few.more (Etsi.DmrCsbk.toPy_few x) (by decide)⟩, trivial⟩

theorem etsiDmrData_told : Each Told etsiDmrData :=
  ⟨⟨fun _ _ => Etsi.DmrData.Rate1LastBlockUnconfirmed.toPy_inj, Etsi.DmrData.Rate1LastBlockUnconfirmed.toPy_regular, fun x => Few.more (Etsi.DmrData.Rate1LastBlockUnconfirmed.toPy_few x) (by decide)⟩, ⟨fun _ _ => Etsi.DmrData.Rate12LastBlockConfirmed.toPy_inj, Etsi.DmrData.Rate12LastBlockConfirmed.toPy_regular, fun x => Few.more (Etsi.DmrData.Rate12LastBlockConfirmed.toPy_few x) (by decide)⟩, ⟨fun _ _ => Etsi.DmrData.Rate12Confirmed.toPy_inj, Etsi.DmrData.Rate12Confirmed.toPy_regular, fun x => Few.more (Etsi.DmrData.Rate12Confirmed.toPy_few x) (by decide)⟩, ⟨fun _ _ => Etsi.DmrData.Rate34LastBlockUnconfirmed.toPy_inj, Etsi.DmrData.Rate34LastBlockUnconfirmed.toPy_regular, fun x => Few.more (Etsi.DmrData.Rate34LastBlockUnconfirmed.toPy_few x) (by decide)⟩, ⟨fun _ _ => Etsi.DmrData.Rate1LastBlockConfirmed.toPy_inj, Etsi.DmrData.Rate1LastBlockConfirmed.toPy_regular, fun x => Few.more (Etsi.DmrData.Rate1LastBlockConfirmed.toPy_few x) (by decide)⟩, ⟨fun _ _ => Etsi.DmrData.Rate1Unconfirmed.toPy_inj, Etsi.DmrData.Rate1Unconfirmed.toPy_regular, fun x => Few.more (Etsi.DmrData.Rate1Unconfirmed.toPy_few x) (by decide)⟩, ⟨fun _ _ => Etsi.DmrData.UdtLastBlock.toPy_inj, Etsi.DmrData.UdtLastBlock.toPy_regular, fun x => Few.more (Etsi.DmrData.UdtLastBlock.toPy_few x) (by decide)⟩, ⟨fun _ _ => Etsi.DmrData.Rate34Confirmed.toPy_inj, Etsi.DmrData.Rate34Confirmed.toPy_regular, fun x => Few.more (Etsi.DmrData.Rate34Confirmed.toPy_few x) (by decide)⟩, ⟨fun _ _ => Etsi.DmrData.Rate34LastBlockConfirmed.toPy_inj, Etsi.DmrData.Rate34LastBlockConfirmed.toPy_regular, fun x => Few.more (Etsi.DmrData.Rate34LastBlockConfirmed.toPy_few x) (by decide)⟩, ⟨fun _ _ => Etsi.DmrData.Rate34Unconfirmed.toPy_inj, Etsi.DmrData.Rate34Unconfirmed.toPy_regular, fun x => Few.more (Etsi.DmrData.Rate34Unconfirmed.toPy_few x) (by decide)⟩, ⟨fun _ _ => Etsi.DmrData.Rate12LastBlockUnconfirmed.toPy_inj, Etsi.DmrData.Rate12LastBlockUnconfirmed.toPy_regular, fun x => Few.more (Etsi.DmrData.Rate12LastBlockUnconfirmed.toPy_few x) (by decide)⟩, ⟨fun _ _ => Etsi.DmrData.Rate1Confirmed.toPy_inj, Etsi.DmrData.Rate1Confirmed.toPy_regular, fun x => Few.more (Etsi.DmrData.Rate1Confirmed.toPy_few x) (by decide)⟩, ⟨fun _ _ => Etsi.DmrData.Rate12Unconfirmed.toPy_inj, Etsi.DmrData.Rate12Unconfirmed.toPy_regular, fun x => Few.more (Etsi.DmrData.Rate12Unconfirmed.toPy_few x) (by decide)⟩, ⟨fun _ _ => Etsi.DmrData.toPy_inj, Etsi.DmrData.toPy_regular, fun x => Few.more (Etsi.DmrData.toPy_few x) (by decide)⟩, trivial⟩

theorem etsiDmrDataHeader_told : Each Told etsiDmrDataHeader :=
  ⟨⟨fun _ _ => Etsi.DmrDataHeader.DataHeaderShortRaw.toPy_inj, Etsi.DmrDataHeader.DataHeaderShortRaw.toPy_regular, fun x => Few.more (Etsi.DmrDataHeader.DataHeaderShortRaw.toPy_few x) (by decide)⟩, ⟨fun _ _ => Etsi.DmrDataHeader.DataHeaderProprietary.toPy_inj, Etsi.DmrDataHeader.DataHeaderProprietary.toPy_regular, fun x => Few.more (Etsi.DmrDataHeader.DataHeaderProprietary.toPy_few x) (by decide)⟩, ⟨fun _ _ => Etsi.DmrDataHeader.DataHeaderUndefined.toPy_inj, Etsi.DmrDataHeader.DataHeaderUndefined.toPy_regular, fun x => Few.more (Etsi.DmrDataHeader.DataHeaderUndefined.toPy_few x) (by decide)⟩, ⟨fun _ _ => Etsi.DmrDataHeader.DataHeaderShortStatusPrecoded.toPy_inj, Etsi.DmrDataHeader.DataHeaderShortStatusPrecoded.toPy_regular, fun x => Few.more (Etsi.DmrDataHeader.DataHeaderShortStatusPrecoded.toPy_few x) (by decide)⟩, ⟨fun _ _ => Etsi.DmrDataHeader.DataHeaderResponse.toPy_inj, Etsi.DmrDataHeader.DataHeaderResponse.toPy_regular, fun x => Few.more (Etsi.DmrDataHeader.DataHeaderResponse.toPy_few x) (by decide)⟩, ⟨fun _ _ => Etsi.DmrDataHeader.DataHeaderConfirmed.toPy_inj, Etsi.DmrDataHeader.DataHeaderConfirmed.toPy_regular, fun x => Few.more (Etsi.DmrDataHeader.DataHeaderConfirmed.toPy_few x) (by decide)⟩, ⟨fun _ _ => Etsi.DmrDataHeader.DataHeaderUnconfirmed.toPy_inj, Etsi.DmrDataHeader.DataHeaderUnconfirmed.toPy_regular, fun x => Few.more (Etsi.DmrDataHeader.DataHeaderUnconfirmed.toPy_few x) (by decide)⟩, ⟨fun _ _ => Etsi.DmrDataHeader.DataHeaderShortDefined.toPy_inj, Etsi.DmrDataHeader.DataHeaderShortDefined.toPy_regular, fun x => Few.more (Etsi.DmrDataHeader.DataHeaderShortDefined.toPy_few x) (by decide)⟩, ⟨fun _ _ => Etsi.DmrDataHeader.DataHeaderUdt.toPy_inj, Etsi.DmrDataHeader.DataHeaderUdt.toPy_regular, fun x => Few.more (Etsi.DmrDataHeader.DataHeaderUdt.toPy_few x) (by decide)⟩, ⟨fun _ _ => Etsi.DmrDataHeader.toPy_inj, Etsi.DmrDataHeader.toPy_regular, fun x => Few.more (Etsi.DmrDataHeader.toPy_few x) (by decide)⟩, trivial⟩

theorem etsiDmrIpUdp_told : Each Told etsiDmrIpUdp :=
  ⟨⟨fun _ _ => Etsi.DmrIpUdp.UdpIpv4CompressedHeader.toPy_inj, Etsi.DmrIpUdp.UdpIpv4CompressedHeader.toPy_regular, fun x => Few.more (Etsi.DmrIpUdp.UdpIpv4CompressedHeader.toPy_few x) (by decide)⟩, ⟨fun _ _ => Etsi.DmrIpUdp.toPy_inj, Etsi.DmrIpUdp.toPy_regular, fun x => Few.more (Etsi.DmrIpUdp.toPy_few x) (by decide)⟩, trivial⟩

theorem etsiFullLinkControl_told : Each Told etsiFullLinkControl :=
  ⟨⟨fun _ _ => Etsi.FullLinkControl.GpsInfoLcPdu.toPy_inj, Etsi.FullLinkControl.GpsInfoLcPdu.toPy_regular, fun x => Few.more (Etsi.FullLinkControl.GpsInfoLcPdu.toPy_few x) (by decide)⟩, ⟨fun _ _ => Etsi.FullLinkControl.GroupVoiceChannelUser.toPy_inj, Etsi.FullLinkControl.GroupVoiceChannelUser.toPy_regular, fun x => Few.more (Etsi.FullLinkControl.GroupVoiceChannelUser.toPy_few x) (by decide)⟩, ⟨fun _ _ => Etsi.FullLinkControl.UnitToUnitVoiceChannelUser.toPy_inj, Etsi.FullLinkControl.UnitToUnitVoiceChannelUser.toPy_regular, fun x => Few.more (Etsi.FullLinkControl.UnitToUnitVoiceChannelUser.toPy_few x) (by decide)⟩, ⟨fun _ _ => Etsi.FullLinkControl.TalkerAliasHeader.toPy_inj, Etsi.FullLinkControl.TalkerAliasHeader.toPy_regular, fun x => Few.more (Etsi.FullLinkControl.TalkerAliasHeader.toPy_few x) (by decide)⟩, ⟨fun _ _ => Etsi.FullLinkControl.TalkerAliasContinuation.toPy_inj, Etsi.FullLinkControl.TalkerAliasContinuation.toPy_regular, fun x => Few.more (Etsi.FullLinkControl.TalkerAliasContinuation.toPy_few x) (by decide)⟩, ⟨fun _ _ => Etsi.FullLinkControl.toPy_inj, Etsi.FullLinkControl.toPy_regular, fun x => Few.more (Etsi.FullLinkControl.toPy_few x) (by decide)⟩, trivial⟩

theorem homebrewHomebrew2015_told : Each Told homebrewHomebrew2015 :=
  ⟨⟨fun _ _ => Homebrew.Homebrew2015.TypeMasterPing.toPy_inj, Homebrew.Homebrew2015.TypeMasterPing.toPy_regular, fun x => Few.more (Homebrew.Homebrew2015.TypeMasterPing.toPy_few x) (by decide)⟩, ⟨fun _ _ => Homebrew.Homebrew2015.TypeRepeaterPong.toPy_inj, Homebrew.Homebrew2015.TypeRepeaterPong.toPy_regular, fun x => Few.more (Homebrew.Homebrew2015.TypeRepeaterPong.toPy_few x) (by decide)⟩, trivial, ⟨fun _ _ => Homebrew.Homebrew2015.TypeRepeaterLoginResponse.toPy_inj, Homebrew.Homebrew2015.TypeRepeaterLoginResponse.toPy_regular, fun x => Few.more (Homebrew.Homebrew2015.TypeRepeaterLoginResponse.toPy_few x) (by decide)⟩, ⟨fun _ _ => Homebrew.Homebrew2015.TypeRepeaterLoginRequest.toPy_inj, Homebrew.Homebrew2015.TypeRepeaterLoginRequest.toPy_regular, fun x => Few.more (Homebrew.Homebrew2015.TypeRepeaterLoginRequest.toPy_few x) (by decide)⟩, ⟨fun _ _ => Homebrew.Homebrew2015.TypeMasterNotAccept.toPy_inj, Homebrew.Homebrew2015.TypeMasterNotAccept.toPy_regular, fun x => Few.more (Homebrew.Homebrew2015.TypeMasterNotAccept.toPy_few x) (by decide)⟩, ⟨fun _ _ => Homebrew.Homebrew2015.TypeMasterRepeaterAck.toPy_inj, Homebrew.Homebrew2015.TypeMasterRepeaterAck.toPy_regular, fun x => Few.more (Homebrew.Homebrew2015.TypeMasterRepeaterAck.toPy_few x) (by decide)⟩, ⟨fun _ _ => Homebrew.Homebrew2015.TypeMasterClosing.toPy_inj, Homebrew.Homebrew2015.TypeMasterClosing.toPy_regular, fun x => Few.more (Homebrew.Homebrew2015.TypeMasterClosing.toPy_few x) (by decide)⟩, ⟨fun _ _ => Homebrew.Homebrew2015.TypeDmrData.toPy_inj, Homebrew.Homebrew2015.TypeDmrData.toPy_regular, fun x => Few.more (Homebrew.Homebrew2015.TypeDmrData.toPy_few x) (by decide)⟩, ⟨fun _ _ => Homebrew.Homebrew2015.TypeRepeaterOptions.toPy_inj, Homebrew.Homebrew2015.TypeRepeaterOptions.toPy_regular, fun x => Few.more (Homebrew.Homebrew2015.TypeRepeaterOptions.toPy_few x) (by decide)⟩, ⟨fun _ _ => Homebrew.Homebrew2015.TypeRepeaterClosing.toPy_inj, Homebrew.Homebrew2015.TypeRepeaterClosing.toPy_regular, fun x => Few.more (Homebrew.Homebrew2015.TypeRepeaterClosing.toPy_few x) (by decide)⟩, ⟨fun _ _ => Homebrew.Homebrew2015.TypeRepeaterConfiguration.toPy_inj, Homebrew.Homebrew2015.TypeRepeaterConfiguration.toPy_regular, fun x => Few.more (Homebrew.Homebrew2015.TypeRepeaterConfiguration.toPy_few x) (by decide)⟩, ⟨fun _ _ => Homebrew.Homebrew2015.toPy_inj, Homebrew.Homebrew2015.toPy_regular, fun x => Few.more (Homebrew.Homebrew2015.toPy_few x) (by decide)⟩, trivial⟩

theorem homebrewMmdvm2020_told : Each Told homebrewMmdvm2020 :=
  ⟨⟨fun _ _ => Homebrew.Mmdvm2020.TypeMasterPong.toPy_inj, Homebrew.Mmdvm2020.TypeMasterPong.toPy_regular, fun x => Few.more (Homebrew.Mmdvm2020.TypeMasterPong.toPy_few x) (by decide)⟩, ⟨fun _ _ => Homebrew.Mmdvm2020.TypeRadioPosition.toPy_inj, Homebrew.Mmdvm2020.TypeRadioPosition.toPy_regular, fun x => Few.more (Homebrew.Mmdvm2020.TypeRadioPosition.toPy_few x) (by decide)⟩, ⟨fun _ _ => Homebrew.Mmdvm2020.TypeTalkerAlias.toPy_inj, Homebrew.Mmdvm2020.TypeTalkerAlias.toPy_regular, fun x => Few.more (Homebrew.Mmdvm2020.TypeTalkerAlias.toPy_few x) (by decide)⟩, trivial, ⟨fun _ _ => Homebrew.Mmdvm2020.TypeRepeaterLoginResponse.toPy_inj, Homebrew.Mmdvm2020.TypeRepeaterLoginResponse.toPy_regular, fun x => Few.more (Homebrew.Mmdvm2020.TypeRepeaterLoginResponse.toPy_few x) (by decide)⟩, ⟨fun _ _ => Homebrew.Mmdvm2020.TypeRepeaterLoginRequest.toPy_inj, Homebrew.Mmdvm2020.TypeRepeaterLoginRequest.toPy_regular, fun x => Few.more (Homebrew.Mmdvm2020.TypeRepeaterLoginRequest.toPy_few x) (by decide)⟩, ⟨fun _ _ => Homebrew.Mmdvm2020.TypeMasterNotAccept.toPy_inj, Homebrew.Mmdvm2020.TypeMasterNotAccept.toPy_regular, fun x => Few.more (Homebrew.Mmdvm2020.TypeMasterNotAccept.toPy_few x) (by decide)⟩, ⟨fun _ _ => Homebrew.Mmdvm2020.TypeUnknown.toPy_inj, Homebrew.Mmdvm2020.TypeUnknown.toPy_regular, fun x => Few.more (Homebrew.Mmdvm2020.TypeUnknown.toPy_few x) (by decide)⟩, ⟨fun _ _ => Homebrew.Mmdvm2020.TypeMasterRepeaterAck.toPy_inj, Homebrew.Mmdvm2020.TypeMasterRepeaterAck.toPy_regular, fun x => Few.more (Homebrew.Mmdvm2020.TypeMasterRepeaterAck.toPy_few x) (by decide)⟩, ⟨fun _ _ => Homebrew.Mmdvm2020.TypeMasterClosing.toPy_inj, Homebrew.Mmdvm2020.TypeMasterClosing.toPy_regular, fun x => Few.more (Homebrew.Mmdvm2020.TypeMasterClosing.toPy_few x) (by decide)⟩, ⟨fun _ _ => Homebrew.Mmdvm2020.TypeDmrData.toPy_inj, Homebrew.Mmdvm2020.TypeDmrData.toPy_regular, fun x => Few.more (Homebrew.Mmdvm2020.TypeDmrData.toPy_few x) (by decide)⟩, ⟨fun _ _ => Homebrew.Mmdvm2020.TypeRepeaterBeacon.toPy_inj, Homebrew.Mmdvm2020.TypeRepeaterBeacon.toPy_regular, fun x => Few.more (Homebrew.Mmdvm2020.TypeRepeaterBeacon.toPy_few x) (by decide)⟩, ⟨fun _ _ => Homebrew.Mmdvm2020.TypeRepeaterOptions.toPy_inj, Homebrew.Mmdvm2020.TypeRepeaterOptions.toPy_regular, fun x => Few.more (Homebrew.Mmdvm2020.TypeRepeaterOptions.toPy_few x) (by decide)⟩, ⟨fun _ _ => Homebrew.Mmdvm2020.TypeRepeaterClosing.toPy_inj, Homebrew.Mmdvm2020.TypeRepeaterClosing.toPy_regular, fun x => Few.more (Homebrew.Mmdvm2020.TypeRepeaterClosing.toPy_few x) (by decide)⟩, ⟨fun _ _ => Homebrew.Mmdvm2020.TypeRepeaterConfiguration.toPy_inj, Homebrew.Mmdvm2020.TypeRepeaterConfiguration.toPy_regular, fun x => Few.more (Homebrew.Mmdvm2020.TypeRepeaterConfiguration.toPy_few x) (by decide)⟩, ⟨fun _ _ => Homebrew.Mmdvm2020.TypeRepeaterPing.toPy_inj, Homebrew.Mmdvm2020.TypeRepeaterPing.toPy_regular, fun x => Few.more (Homebrew.Mmdvm2020.TypeRepeaterPing.toPy_few x) (by decide)⟩, ⟨fun _ _ => Homebrew.Mmdvm2020.toPy_inj, Homebrew.Mmdvm2020.toPy_regular, fun x => Few.more (Homebrew.Mmdvm2020.toPy_few x) (by decide)⟩, trivial⟩

theorem motorolaAutomaticRegistrationService_told : Each Told motorolaAutomaticRegistrationService :=
  ⟨trivial, ⟨fun _ _ => Motorola.AutomaticRegistrationService.DeviceRegistrationMessageHeader.toPy_inj, Motorola.AutomaticRegistrationService.DeviceRegistrationMessageHeader.toPy_regular, fun x => Few.more (Motorola.AutomaticRegistrationService.DeviceRegistrationMessageHeader.toPy_few x) (by decide)⟩, ⟨fun _ _ => Motorola.AutomaticRegistrationService.MessageHeaderBits.toPy_inj, Motorola.AutomaticRegistrationService.MessageHeaderBits.toPy_regular, fun x => Few.more (Motorola.AutomaticRegistrationService.MessageHeaderBits.toPy_few x) (by decide)⟩, ⟨fun _ _ => Motorola.AutomaticRegistrationService.DeviceDeregistrationMessage.toPy_inj, Motorola.AutomaticRegistrationService.DeviceDeregistrationMessage.toPy_regular, fun x => Few.more (Motorola.AutomaticRegistrationService.DeviceDeregistrationMessage.toPy_few x) (by decide)⟩, ⟨fun _ _ => Motorola.AutomaticRegistrationService.DeviceRegistrationAcknowledgementFailureReason.toPy_inj, Motorola.AutomaticRegistrationService.DeviceRegistrationAcknowledgementFailureReason.toPy_regular, fun x => Few.more (Motorola.AutomaticRegistrationService.DeviceRegistrationAcknowledgementFailureReason.toPy_few x) (by decide)⟩, trivial, ⟨fun _ _ => Motorola.AutomaticRegistrationService.ArsQueryMessage.toPy_inj, Motorola.AutomaticRegistrationService.ArsQueryMessage.toPy_regular, fun x => Few.more (Motorola.AutomaticRegistrationService.ArsQueryMessage.toPy_few x) (by decide)⟩, ⟨fun _ _ => Motorola.AutomaticRegistrationService.DeviceRegistrationAcknowledgementHeader.toPy_inj, Motorola.AutomaticRegistrationService.DeviceRegistrationAcknowledgementHeader.toPy_regular, fun x => Few.more (Motorola.AutomaticRegistrationService.DeviceRegistrationAcknowledgementHeader.toPy_few x) (by decide)⟩, ⟨fun _ _ => Motorola.AutomaticRegistrationService.toPy_inj, Motorola.AutomaticRegistrationService.toPy_regular, fun x => Few.more (Motorola.AutomaticRegistrationService.toPy_few x) (by decide)⟩, trivial⟩

theorem motorolaMotorolaBinaryXml_told : Each Told motorolaMotorolaBinaryXml :=
  ⟨⟨fun _ _ => Motorola.MotorolaBinaryXml.LrrpImmediateRequestNcdt.toPy_inj, Motorola.MotorolaBinaryXml.LrrpImmediateRequestNcdt.toPy_regular, fun x => Few.more (Motorola.MotorolaBinaryXml.LrrpImmediateRequestNcdt.toPy_few x) (by decide)⟩, ⟨fun _ _ => Motorola.MotorolaBinaryXml.Opaque3byteValue.toPy_inj, Motorola.MotorolaBinaryXml.Opaque3byteValue.toPy_regular, fun x => Few.more (Motorola.MotorolaBinaryXml.Opaque3byteValue.toPy_few x) (by decide)⟩, ⟨fun _ _ => Motorola.MotorolaBinaryXml.LrrpElement.toPy_inj, Motorola.MotorolaBinaryXml.LrrpElement.toPy_regular, fun x => Few.more (Motorola.MotorolaBinaryXml.LrrpElement.toPy_few x) (by decide)⟩, ⟨fun _ _ => Motorola.MotorolaBinaryXml.Sfloatvar.toPy_inj, Motorola.MotorolaBinaryXml.Sfloatvar.toPy_regular, fun x => Few.more (Motorola.MotorolaBinaryXml.Sfloatvar.toPy_few x) (by decide)⟩, ⟨fun _ _ => Motorola.MotorolaBinaryXml.Opaque5byteValue.toPy_inj, Motorola.MotorolaBinaryXml.Opaque5byteValue.toPy_regular, fun x => Few.more (Motorola.MotorolaBinaryXml.Opaque5byteValue.toPy_few x) (by decide)⟩, ⟨fun _ _ => Motorola.MotorolaBinaryXml.Opaque1byteValue.toPy_inj, Motorola.MotorolaBinaryXml.Opaque1byteValue.toPy_regular, fun x => Few.more (Motorola.MotorolaBinaryXml.Opaque1byteValue.toPy_few x) (by decide)⟩, ⟨fun _ _ => Motorola.MotorolaBinaryXml.Uintvar.toPy_inj, Motorola.MotorolaBinaryXml.Uintvar.toPy_regular, fun x => Few.more (Motorola.MotorolaBinaryXml.Uintvar.toPy_few x) (by decide)⟩, ⟨fun _ _ => Motorola.MotorolaBinaryXml.Ufloatvar.toPy_inj, Motorola.MotorolaBinaryXml.Ufloatvar.toPy_regular, fun x => Few.more (Motorola.MotorolaBinaryXml.Ufloatvar.toPy_few x) (by decide)⟩, ⟨fun _ _ => Motorola.MotorolaBinaryXml.ConstantDataTableReference.toPy_inj, Motorola.MotorolaBinaryXml.ConstantDataTableReference.toPy_regular, fun x => Few.more (Motorola.MotorolaBinaryXml.ConstantDataTableReference.toPy_few x) (by decide)⟩, ⟨fun _ _ => Motorola.MotorolaBinaryXml.MbxmlDocument.toPy_inj, Motorola.MotorolaBinaryXml.MbxmlDocument.toPy_regular, fun x => Few.more (Motorola.MotorolaBinaryXml.MbxmlDocument.toPy_few x) (by decide)⟩, ⟨fun _ _ => Motorola.MotorolaBinaryXml.OpaqueElementValue.toPy_inj, Motorola.MotorolaBinaryXml.OpaqueElementValue.toPy_regular, fun x => Few.more (Motorola.MotorolaBinaryXml.OpaqueElementValue.toPy_few x) (by decide)⟩, ⟨fun _ _ => Motorola.MotorolaBinaryXml.Opaque2byteValue.toPy_inj, Motorola.MotorolaBinaryXml.Opaque2byteValue.toPy_regular, fun x => Few.more (Motorola.MotorolaBinaryXml.Opaque2byteValue.toPy_few x) (by decide)⟩, ⟨fun _ _ => Motorola.MotorolaBinaryXml.Sintvar.toPy_inj, Motorola.MotorolaBinaryXml.Sintvar.toPy_regular, fun x => Few.more (Motorola.MotorolaBinaryXml.Sintvar.toPy_few x) (by decide)⟩, ⟨fun _ _ => Motorola.MotorolaBinaryXml.Opaque4byteValue.toPy_inj, Motorola.MotorolaBinaryXml.Opaque4byteValue.toPy_regular, fun x => Few.more (Motorola.MotorolaBinaryXml.Opaque4byteValue.toPy_few x) (by decide)⟩, ⟨fun _ _ => Motorola.MotorolaBinaryXml.toPy_inj, Motorola.MotorolaBinaryXml.toPy_regular, fun x => Few.more (Motorola.MotorolaBinaryXml.toPy_few x) (by decide)⟩, trivial⟩

theorem motorolaTextMessageProtocol_told : Each Told motorolaTextMessageProtocol :=
  ⟨trivial, trivial, ⟨fun _ _ => Motorola.TextMessageProtocol.TextMessageHeaderSequenceAndEncoding.toPy_inj, Motorola.TextMessageProtocol.TextMessageHeaderSequenceAndEncoding.toPy_regular, fun x => Few.more (Motorola.TextMessageProtocol.TextMessageHeaderSequenceAndEncoding.toPy_few x) (by decide)⟩, ⟨fun _ _ => Motorola.TextMessageProtocol.MessageHeaderBits.toPy_inj, Motorola.TextMessageProtocol.MessageHeaderBits.toPy_regular, fun x => Few.more (Motorola.TextMessageProtocol.MessageHeaderBits.toPy_few x) (by decide)⟩, trivial, ⟨fun _ _ => Motorola.TextMessageProtocol.TmsAcknowledgementHeaderSequenceNumber.toPy_inj, Motorola.TextMessageProtocol.TmsAcknowledgementHeaderSequenceNumber.toPy_regular, fun x => Few.more (Motorola.TextMessageProtocol.TmsAcknowledgementHeaderSequenceNumber.toPy_few x) (by decide)⟩, ⟨fun _ _ => Motorola.TextMessageProtocol.TmsServiceAvailabilityAcknowledgement.toPy_inj, Motorola.TextMessageProtocol.TmsServiceAvailabilityAcknowledgement.toPy_regular, fun x => Few.more (Motorola.TextMessageProtocol.TmsServiceAvailabilityAcknowledgement.toPy_few x) (by decide)⟩, ⟨fun _ _ => Motorola.TextMessageProtocol.TmsServiceAvailabilityHeader.toPy_inj, Motorola.TextMessageProtocol.TmsServiceAvailabilityHeader.toPy_regular, fun x => Few.more (Motorola.TextMessageProtocol.TmsServiceAvailabilityHeader.toPy_few x) (by decide)⟩, ⟨fun _ _ => Motorola.TextMessageProtocol.toPy_inj, Motorola.TextMessageProtocol.toPy_regular, fun x => Few.more (Motorola.TextMessageProtocol.toPy_few x) (by decide)⟩, trivial⟩

theorem table_told : ∀ row ∈ table, Told row := by
  intro row h
  obtain ⟨l, hl, h⟩ := List.mem_flatten.1 h
  have : Each (fun l => Each Told l) [hyteraDataDeliveryStates, hyteraDataTransmitProtocol, hyteraDatetimestring, hyteraGpsdata, hyteraHyteraDmrApplicationProtocol, hyteraHyteraRadioNetworkProtocol, hyteraHyteraSimpleTransportReliabilityProtocol, hyteraIntervalstring, hyteraIpSiteConnectHeartbeat, hyteraIpSiteConnectProtocol, hyteraLocationProtocol, hyteraRadioControlProtocol, hyteraRadioId, hyteraRadioIp, hyteraRadioRegistrationService, hyteraRealTimeTransportProtocol, hyteraTelemetryProtocol, hyteraTextMessageProtocol, etsiDmrCsbk, etsiDmrData, etsiDmrDataHeader, etsiDmrIpUdp, etsiFullLinkControl, homebrewHomebrew2015, homebrewMmdvm2020, motorolaAutomaticRegistrationService, motorolaMotorolaBinaryXml, motorolaTextMessageProtocol] :=
    ⟨hyteraDataDeliveryStates_told, hyteraDataTransmitProtocol_told, hyteraDatetimestring_told, hyteraGpsdata_told, hyteraHyteraDmrApplicationProtocol_told, hyteraHyteraRadioNetworkProtocol_told, hyteraHyteraSimpleTransportReliabilityProtocol_told, hyteraIntervalstring_told, hyteraIpSiteConnectHeartbeat_told, hyteraIpSiteConnectProtocol_told, hyteraLocationProtocol_told, hyteraRadioControlProtocol_told, hyteraRadioId_told, hyteraRadioIp_told, hyteraRadioRegistrationService_told, hyteraRealTimeTransportProtocol_told, hyteraTelemetryProtocol_told, hyteraTextMessageProtocol_told, etsiDmrCsbk_told, etsiDmrData_told, etsiDmrDataHeader_told, etsiDmrIpUdp_told, etsiFullLinkControl_told, homebrewHomebrew2015_told, homebrewMmdvm2020_told, motorolaAutomaticRegistrationService_told, motorolaMotorolaBinaryXml_told, motorolaTextMessageProtocol_told, trivial⟩
  exact (this.mem l hl).mem row h

end Dmr.Py
