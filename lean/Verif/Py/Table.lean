import Verif.Py.Conform.DataDeliveryStates
import Verif.Py.Conform.DataTransmitProtocol
import Verif.Py.Conform.Datetimestring
import Verif.Py.Conform.Gpsdata
import Verif.Py.Conform.HyteraDmrApplicationProtocol
import Verif.Py.Conform.HyteraRadioNetworkProtocol
import Verif.Py.Conform.HyteraSimpleTransportReliabilityProtocol
import Verif.Py.Conform.Intervalstring
import Verif.Py.Conform.IpSiteConnectHeartbeat
import Verif.Py.Conform.IpSiteConnectProtocol
import Verif.Py.Conform.LocationProtocol
import Verif.Py.Conform.RadioControlProtocol
import Verif.Py.Conform.RadioId
import Verif.Py.Conform.RadioIp
import Verif.Py.Conform.RadioRegistrationService
import Verif.Py.Conform.RealTimeTransportProtocol
import Verif.Py.Conform.TelemetryProtocol
import Verif.Py.Conform.TextMessageProtocol
import Verif.Py.Conform.DmrCsbk
import Verif.Py.Conform.DmrData
import Verif.Py.Conform.DmrDataHeader
import Verif.Py.Conform.DmrIpUdp
import Verif.Py.Conform.FullLinkControl
import Verif.Py.Conform.Homebrew2015
import Verif.Py.Conform.Mmdvm2020
import Verif.Py.Conform.AutomaticRegistrationService
import Verif.Py.Conform.MotorolaBinaryXml
import Verif.Py.Conform.TextMessageProtocolMotorola
import Verif.Py.Agree
import Verif.Py.RegularLibrary
/-
Generated by tools/mkpytable.py: all classes of the library, in the order of the source files, with their models.
-/

set_option autoImplicit false
set_option maxHeartbeats 1000000
set_option linter.unusedTactic false
set_option linter.unreachableTactic false

namespace Dmr.Py

/-- What is claimed of a class: its model, if it has one that does not depend on other objects. -/
def Claim (row : String × Option Reader) : Prop :=
  match row.2 with
  | some R => Constructs row.1 R
  | none => Unusable row.1

/-- The classes of `Hytera.DataDeliveryStates`. -/
def hyteraDataDeliveryStates : List (String × Option Reader) :=
  [("Hytera.DataDeliveryStates", some ⟨Hytera.DataDeliveryStates, Hytera.DataDeliveryStates.read, Hytera.DataDeliveryStates.toPy⟩)]

/-- The classes of `Hytera.DataTransmitProtocol`. -/
def hyteraDataTransmitProtocol : List (String × Option Reader) :=
  [("Hytera.DataTransmitProtocol.LastDataSlice", some ⟨Hytera.DataTransmitProtocol.LastDataSlice, Hytera.DataTransmitProtocol.LastDataSlice.read, Hytera.DataTransmitProtocol.LastDataSlice.toPy⟩),
   ("Hytera.DataTransmitProtocol.DtpRequest", none),
   ("Hytera.DataTransmitProtocol.DataSliceAnswer", some ⟨Hytera.DataTransmitProtocol.DataSliceAnswer, Hytera.DataTransmitProtocol.DataSliceAnswer.read, Hytera.DataTransmitProtocol.DataSliceAnswer.toPy⟩),
   ("Hytera.DataTransmitProtocol.DataSliceTransmit", none),
   ("Hytera.DataTransmitProtocol.LastDataSliceAnswer", some ⟨Hytera.DataTransmitProtocol.LastDataSliceAnswer, Hytera.DataTransmitProtocol.LastDataSliceAnswer.read, Hytera.DataTransmitProtocol.LastDataSliceAnswer.toPy⟩),
   ("Hytera.DataTransmitProtocol.DtpAnswer", some ⟨Hytera.DataTransmitProtocol.DtpAnswer, Hytera.DataTransmitProtocol.DtpAnswer.read, Hytera.DataTransmitProtocol.DtpAnswer.toPy⟩),
   ("Hytera.DataTransmitProtocol", some ⟨Hytera.DataTransmitProtocol, Hytera.DataTransmitProtocol.read, Hytera.DataTransmitProtocol.toPy⟩)]

/-- The classes of `Hytera.Datetimestring`. -/
def hyteraDatetimestring : List (String × Option Reader) :=
  [("Hytera.Datetimestring", some ⟨Hytera.Datetimestring, Hytera.Datetimestring.read, Hytera.Datetimestring.toPy⟩)]

/-- The classes of `Hytera.Gpsdata`. -/
def hyteraGpsdata : List (String × Option Reader) :=
  [("Hytera.Gpsdata", some ⟨Hytera.Gpsdata, Hytera.Gpsdata.read, Hytera.Gpsdata.toPy⟩)]

/-- The classes of `Hytera.HyteraDmrApplicationProtocol`. -/
def hyteraHyteraDmrApplicationProtocol : List (String × Option Reader) :=
  [("Hytera.HyteraDmrApplicationProtocol.UndefinedProtocol", some ⟨Hytera.HyteraDmrApplicationProtocol.UndefinedProtocol, Hytera.HyteraDmrApplicationProtocol.UndefinedProtocol.read, Hytera.HyteraDmrApplicationProtocol.UndefinedProtocol.toPy⟩),
   ("Hytera.HyteraDmrApplicationProtocol", some ⟨Hytera.HyteraDmrApplicationProtocol, Hytera.HyteraDmrApplicationProtocol.read, Hytera.HyteraDmrApplicationProtocol.toPy⟩)]

/-- The classes of `Hytera.HyteraRadioNetworkProtocol`. -/
def hyteraHyteraRadioNetworkProtocol : List (String × Option Reader) :=
  [("Hytera.HyteraRadioNetworkProtocol", some ⟨Hytera.HyteraRadioNetworkProtocol, Hytera.HyteraRadioNetworkProtocol.read, Hytera.HyteraRadioNetworkProtocol.toPy⟩)]

/-- The classes of `Hytera.HyteraSimpleTransportReliabilityProtocol`. -/
def hyteraHyteraSimpleTransportReliabilityProtocol : List (String × Option Reader) :=
  [("Hytera.HyteraSimpleTransportReliabilityProtocol.Option", some ⟨Hytera.HyteraSimpleTransportReliabilityProtocol.Option, Hytera.HyteraSimpleTransportReliabilityProtocol.Option.read, Hytera.HyteraSimpleTransportReliabilityProtocol.Option.toPy⟩),
   ("Hytera.HyteraSimpleTransportReliabilityProtocol", some ⟨Hytera.HyteraSimpleTransportReliabilityProtocol, Hytera.HyteraSimpleTransportReliabilityProtocol.read, Hytera.HyteraSimpleTransportReliabilityProtocol.toPy⟩)]

/-- The classes of `Hytera.Intervalstring`. -/
def hyteraIntervalstring : List (String × Option Reader) :=
  [("Hytera.Intervalstring", some ⟨Hytera.Intervalstring, Hytera.Intervalstring.read, Hytera.Intervalstring.toPy⟩)]

/-- The classes of `Hytera.IpSiteConnectHeartbeat`. -/
def hyteraIpSiteConnectHeartbeat : List (String × Option Reader) :=
  [("Hytera.IpSiteConnectHeartbeat.Keepalive", some ⟨Hytera.IpSiteConnectHeartbeat.Keepalive, Hytera.IpSiteConnectHeartbeat.Keepalive.read, Hytera.IpSiteConnectHeartbeat.Keepalive.toPy⟩),
   ("Hytera.IpSiteConnectHeartbeat.PingPong", some ⟨Hytera.IpSiteConnectHeartbeat.PingPong, Hytera.IpSiteConnectHeartbeat.PingPong.read, Hytera.IpSiteConnectHeartbeat.PingPong.toPy⟩),
   ("Hytera.IpSiteConnectHeartbeat.Unknown", some ⟨Hytera.IpSiteConnectHeartbeat.Unknown, Hytera.IpSiteConnectHeartbeat.Unknown.read, Hytera.IpSiteConnectHeartbeat.Unknown.toPy⟩),
   ("Hytera.IpSiteConnectHeartbeat", some ⟨Hytera.IpSiteConnectHeartbeat, Hytera.IpSiteConnectHeartbeat.read, Hytera.IpSiteConnectHeartbeat.toPy⟩)]

/-- The classes of `Hytera.IpSiteConnectProtocol`. -/
def hyteraIpSiteConnectProtocol : List (String × Option Reader) :=
  [("Hytera.IpSiteConnectProtocol", some ⟨Hytera.IpSiteConnectProtocol, Hytera.IpSiteConnectProtocol.read, Hytera.IpSiteConnectProtocol.toPy⟩)]

/-- The classes of `Hytera.LocationProtocol`. -/
def hyteraLocationProtocol : List (String × Option Reader) :=
  [("Hytera.LocationProtocol.TriggeredReportStopAnswer", some ⟨Hytera.LocationProtocol.TriggeredReportStopAnswer, Hytera.LocationProtocol.TriggeredReportStopAnswer.read, Hytera.LocationProtocol.TriggeredReportStopAnswer.toPy⟩),
   ("Hytera.LocationProtocol.ConditionReportRequest", some ⟨Hytera.LocationProtocol.ConditionReportRequest, Hytera.LocationProtocol.ConditionReportRequest.read, Hytera.LocationProtocol.ConditionReportRequest.toPy⟩),
   ("Hytera.LocationProtocol.ConditionQuickGpsRequest", some ⟨Hytera.LocationProtocol.ConditionQuickGpsRequest, Hytera.LocationProtocol.ConditionQuickGpsRequest.read, Hytera.LocationProtocol.ConditionQuickGpsRequest.toPy⟩),
   ("Hytera.LocationProtocol.ConditionReport", some ⟨Hytera.LocationProtocol.ConditionReport, Hytera.LocationProtocol.ConditionReport.read, Hytera.LocationProtocol.ConditionReport.toPy⟩),
   ("Hytera.LocationProtocol.EmergencyReport", some ⟨Hytera.LocationProtocol.EmergencyReport, Hytera.LocationProtocol.EmergencyReport.read, Hytera.LocationProtocol.EmergencyReport.toPy⟩),
   ("Hytera.LocationProtocol.TriggeredReportAnswer", some ⟨Hytera.LocationProtocol.TriggeredReportAnswer, Hytera.LocationProtocol.TriggeredReportAnswer.read, Hytera.LocationProtocol.TriggeredReportAnswer.toPy⟩),
   ("Hytera.LocationProtocol.StandardAnswerWithRssi", some ⟨Hytera.LocationProtocol.StandardAnswerWithRssi, Hytera.LocationProtocol.StandardAnswerWithRssi.read, Hytera.LocationProtocol.StandardAnswerWithRssi.toPy⟩),
   ("Hytera.LocationProtocol.QuickGpsPayload", some ⟨Hytera.LocationProtocol.QuickGpsPayload, Hytera.LocationProtocol.QuickGpsPayload.read, Hytera.LocationProtocol.QuickGpsPayload.toPy⟩),
   ("Hytera.LocationProtocol.StandardRequest", some ⟨Hytera.LocationProtocol.StandardRequest, Hytera.LocationProtocol.StandardRequest.read, Hytera.LocationProtocol.StandardRequest.toPy⟩),
   ("Hytera.LocationProtocol.TriggeredReportRequest", some ⟨Hytera.LocationProtocol.TriggeredReportRequest, Hytera.LocationProtocol.TriggeredReportRequest.read, Hytera.LocationProtocol.TriggeredReportRequest.toPy⟩),
   ("Hytera.LocationProtocol.StandardAnswer", some ⟨Hytera.LocationProtocol.StandardAnswer, Hytera.LocationProtocol.StandardAnswer.read, Hytera.LocationProtocol.StandardAnswer.toPy⟩),
   ("Hytera.LocationProtocol.ConditionReportAnswer", some ⟨Hytera.LocationProtocol.ConditionReportAnswer, Hytera.LocationProtocol.ConditionReportAnswer.read, Hytera.LocationProtocol.ConditionReportAnswer.toPy⟩),
   ("Hytera.LocationProtocol.EmergencyReportStopRequest", some ⟨Hytera.LocationProtocol.EmergencyReportStopRequest, Hytera.LocationProtocol.EmergencyReportStopRequest.read, Hytera.LocationProtocol.EmergencyReportStopRequest.toPy⟩),
   ("Hytera.LocationProtocol.ConditionQuickGpsAnswer", some ⟨Hytera.LocationProtocol.ConditionQuickGpsAnswer, Hytera.LocationProtocol.ConditionQuickGpsAnswer.read, Hytera.LocationProtocol.ConditionQuickGpsAnswer.toPy⟩),
   ("Hytera.LocationProtocol.TriggeredReport", some ⟨Hytera.LocationProtocol.TriggeredReport, Hytera.LocationProtocol.TriggeredReport.read, Hytera.LocationProtocol.TriggeredReport.toPy⟩),
   ("Hytera.LocationProtocol.ConditionReportWithRssi", some ⟨Hytera.LocationProtocol.ConditionReportWithRssi, Hytera.LocationProtocol.ConditionReportWithRssi.read, Hytera.LocationProtocol.ConditionReportWithRssi.toPy⟩),
   ("Hytera.LocationProtocol.EmergencyReportStopAnswer", some ⟨Hytera.LocationProtocol.EmergencyReportStopAnswer, Hytera.LocationProtocol.EmergencyReportStopAnswer.read, Hytera.LocationProtocol.EmergencyReportStopAnswer.toPy⟩),
   ("Hytera.LocationProtocol.TriggeredReportStopRequest", some ⟨Hytera.LocationProtocol.TriggeredReportStopRequest, Hytera.LocationProtocol.TriggeredReportStopRequest.read, Hytera.LocationProtocol.TriggeredReportStopRequest.toPy⟩),
   ("Hytera.LocationProtocol", some ⟨Hytera.LocationProtocol, Hytera.LocationProtocol.read, Hytera.LocationProtocol.toPy⟩)]

/-- The classes of `Hytera.RadioControlProtocol`. -/
def hyteraRadioControlProtocol : List (String × Option Reader) :=
  [("Hytera.RadioControlProtocol.BroadcastStatusConfigurationReply", some ⟨Hytera.RadioControlProtocol.BroadcastStatusConfigurationReply, Hytera.RadioControlProtocol.BroadcastStatusConfigurationReply.read, Hytera.RadioControlProtocol.BroadcastStatusConfigurationReply.toPy⟩),
   ("Hytera.RadioControlProtocol.BroadcastConfiguration", some ⟨Hytera.RadioControlProtocol.BroadcastConfiguration, Hytera.RadioControlProtocol.BroadcastConfiguration.read, Hytera.RadioControlProtocol.BroadcastConfiguration.toPy⟩),
   ("Hytera.RadioControlProtocol.BroadcastStatusConfigurationRequest", some ⟨Hytera.RadioControlProtocol.BroadcastStatusConfigurationRequest, Hytera.RadioControlProtocol.BroadcastStatusConfigurationRequest.read, Hytera.RadioControlProtocol.BroadcastStatusConfigurationRequest.toPy⟩),
   ("Hytera.RadioControlProtocol.RadioIdentificationReply", none),
   ("Hytera.RadioControlProtocol.GenericData", none),
   ("Hytera.RadioControlProtocol.CallRequest", some ⟨Hytera.RadioControlProtocol.CallRequest, Hytera.RadioControlProtocol.CallRequest.read, Hytera.RadioControlProtocol.CallRequest.toPy⟩),
   ("Hytera.RadioControlProtocol.RemoveRadioReply", some ⟨Hytera.RadioControlProtocol.RemoveRadioReply, Hytera.RadioControlProtocol.RemoveRadioReply.read, Hytera.RadioControlProtocol.RemoveRadioReply.toPy⟩),
   ("Hytera.RadioControlProtocol.RemoveRadioRequest", some ⟨Hytera.RadioControlProtocol.RemoveRadioRequest, Hytera.RadioControlProtocol.RemoveRadioRequest.read, Hytera.RadioControlProtocol.RemoveRadioRequest.toPy⟩),
   ("Hytera.RadioControlProtocol.CallReply", some ⟨Hytera.RadioControlProtocol.CallReply, Hytera.RadioControlProtocol.CallReply.read, Hytera.RadioControlProtocol.CallReply.toPy⟩),
   ("Hytera.RadioControlProtocol", some ⟨Hytera.RadioControlProtocol, Hytera.RadioControlProtocol.read, Hytera.RadioControlProtocol.toPy⟩)]

/-- The classes of `Hytera.RadioId`. -/
def hyteraRadioId : List (String × Option Reader) :=
  [("Hytera.RadioId", some ⟨Hytera.RadioId, Hytera.RadioId.read, Hytera.RadioId.toPy⟩)]

/-- The classes of `Hytera.RadioIp`. -/
def hyteraRadioIp : List (String × Option Reader) :=
  [("Hytera.RadioIp", some ⟨Hytera.RadioIp, Hytera.RadioIp.read, Hytera.RadioIp.toPy⟩)]

/-- The classes of `Hytera.RadioRegistrationService`. -/
def hyteraRadioRegistrationService : List (String × Option Reader) :=
  [("Hytera.RadioRegistrationService", some ⟨Hytera.RadioRegistrationService, Hytera.RadioRegistrationService.read, Hytera.RadioRegistrationService.toPy⟩)]

/-- The classes of `Hytera.RealTimeTransportProtocol`. -/
def hyteraRealTimeTransportProtocol : List (String × Option Reader) :=
  [("Hytera.RealTimeTransportProtocol.FixedHeader", some ⟨Hytera.RealTimeTransportProtocol.FixedHeader, Hytera.RealTimeTransportProtocol.FixedHeader.read, Hytera.RealTimeTransportProtocol.FixedHeader.toPy⟩),
   ("Hytera.RealTimeTransportProtocol.HeaderExtension", some ⟨Hytera.RealTimeTransportProtocol.HeaderExtension, Hytera.RealTimeTransportProtocol.HeaderExtension.read, Hytera.RealTimeTransportProtocol.HeaderExtension.toPy⟩),
   ("Hytera.RealTimeTransportProtocol", some ⟨Hytera.RealTimeTransportProtocol, Hytera.RealTimeTransportProtocol.read, Hytera.RealTimeTransportProtocol.toPy⟩)]

/-- The classes of `Hytera.TelemetryProtocol`. -/
def hyteraTelemetryProtocol : List (String × Option Reader) :=
  [("Hytera.TelemetryProtocol.StandardStatusReport", some ⟨Hytera.TelemetryProtocol.StandardStatusReport, Hytera.TelemetryProtocol.StandardStatusReport.read, Hytera.TelemetryProtocol.StandardStatusReport.toPy⟩),
   ("Hytera.TelemetryProtocol.VioExtendedStatus", some ⟨Hytera.TelemetryProtocol.VioExtendedStatus, Hytera.TelemetryProtocol.VioExtendedStatus.read, Hytera.TelemetryProtocol.VioExtendedStatus.toPy⟩),
   ("Hytera.TelemetryProtocol.RemoteControlAnswer", some ⟨Hytera.TelemetryProtocol.RemoteControlAnswer, Hytera.TelemetryProtocol.RemoteControlAnswer.read, Hytera.TelemetryProtocol.RemoteControlAnswer.toPy⟩),
   ("Hytera.TelemetryProtocol.RemoteControlRequest", some ⟨Hytera.TelemetryProtocol.RemoteControlRequest, Hytera.TelemetryProtocol.RemoteControlRequest.read, Hytera.TelemetryProtocol.RemoteControlRequest.toPy⟩),
   ("Hytera.TelemetryProtocol.ExtendedStatusReport", some ⟨Hytera.TelemetryProtocol.ExtendedStatusReport, Hytera.TelemetryProtocol.ExtendedStatusReport.read, Hytera.TelemetryProtocol.ExtendedStatusReport.toPy⟩),
   ("Hytera.TelemetryProtocol.StandardStatusRequest", some ⟨Hytera.TelemetryProtocol.StandardStatusRequest, Hytera.TelemetryProtocol.StandardStatusRequest.read, Hytera.TelemetryProtocol.StandardStatusRequest.toPy⟩),
   ("Hytera.TelemetryProtocol", some ⟨Hytera.TelemetryProtocol, Hytera.TelemetryProtocol.read, Hytera.TelemetryProtocol.toPy⟩)]

/-- The classes of `Hytera.TextMessageProtocol`. -/
def hyteraTextMessageProtocol : List (String × Option Reader) :=
  [("Hytera.TextMessageProtocol", some ⟨Hytera.TextMessageProtocol, Hytera.TextMessageProtocol.read, Hytera.TextMessageProtocol.toPy⟩)]

/-- The classes of `Etsi.DmrCsbk`. -/
def etsiDmrCsbk : List (String × Option Reader) :=
  [("Etsi.DmrCsbk.NegativeAckResponseData", some ⟨Etsi.DmrCsbk.NegativeAckResponseData, Etsi.DmrCsbk.NegativeAckResponseData.read, Etsi.DmrCsbk.NegativeAckResponseData.toPy⟩),
   ("Etsi.DmrCsbk.UnitToUnitVoiceRequestData", some ⟨Etsi.DmrCsbk.UnitToUnitVoiceRequestData, Etsi.DmrCsbk.UnitToUnitVoiceRequestData.read, Etsi.DmrCsbk.UnitToUnitVoiceRequestData.toPy⟩),
   ("Etsi.DmrCsbk.ServiceOptions", some ⟨Etsi.DmrCsbk.ServiceOptions, Etsi.DmrCsbk.ServiceOptions.read, Etsi.DmrCsbk.ServiceOptions.toPy⟩),
   ("Etsi.DmrCsbk.PreambleData", some ⟨Etsi.DmrCsbk.PreambleData, Etsi.DmrCsbk.PreambleData.read, Etsi.DmrCsbk.PreambleData.toPy⟩),
   ("Etsi.DmrCsbk.ChannelTimingData", some ⟨Etsi.DmrCsbk.ChannelTimingData, Etsi.DmrCsbk.ChannelTimingData.read, Etsi.DmrCsbk.ChannelTimingData.toPy⟩),
   ("Etsi.DmrCsbk.BsOutboundActivationData", some ⟨Etsi.DmrCsbk.BsOutboundActivationData, Etsi.DmrCsbk.BsOutboundActivationData.read, Etsi.DmrCsbk.BsOutboundActivationData.toPy⟩),
   ("Etsi.DmrCsbk.UnitToUnitVoiceAnswerData", some ⟨Etsi.DmrCsbk.UnitToUnitVoiceAnswerData, Etsi.DmrCsbk.UnitToUnitVoiceAnswerData.read, Etsi.DmrCsbk.UnitToUnitVoiceAnswerData.toPy⟩),
   ("Etsi.DmrCsbk", some ⟨Etsi.DmrCsbk, Etsi.DmrCsbk.read, Etsi.DmrCsbk.toPy⟩)]

/-- The classes of `Etsi.DmrData`. -/
def etsiDmrData : List (String × Option Reader) :=
  [("Etsi.DmrData.Rate1LastBlockUnconfirmed", some ⟨Etsi.DmrData.Rate1LastBlockUnconfirmed, Etsi.DmrData.Rate1LastBlockUnconfirmed.read, Etsi.DmrData.Rate1LastBlockUnconfirmed.toPy⟩),
   ("Etsi.DmrData.Rate12LastBlockConfirmed", some ⟨Etsi.DmrData.Rate12LastBlockConfirmed, Etsi.DmrData.Rate12LastBlockConfirmed.read, Etsi.DmrData.Rate12LastBlockConfirmed.toPy⟩),
   ("Etsi.DmrData.Rate12Confirmed", some ⟨Etsi.DmrData.Rate12Confirmed, Etsi.DmrData.Rate12Confirmed.read, Etsi.DmrData.Rate12Confirmed.toPy⟩),
   ("Etsi.DmrData.Rate34LastBlockUnconfirmed", some ⟨Etsi.DmrData.Rate34LastBlockUnconfirmed, Etsi.DmrData.Rate34LastBlockUnconfirmed.read, Etsi.DmrData.Rate34LastBlockUnconfirmed.toPy⟩),
   ("Etsi.DmrData.Rate1LastBlockConfirmed", some ⟨Etsi.DmrData.Rate1LastBlockConfirmed, Etsi.DmrData.Rate1LastBlockConfirmed.read, Etsi.DmrData.Rate1LastBlockConfirmed.toPy⟩),
   ("Etsi.DmrData.Rate1Unconfirmed", some ⟨Etsi.DmrData.Rate1Unconfirmed, Etsi.DmrData.Rate1Unconfirmed.read, Etsi.DmrData.Rate1Unconfirmed.toPy⟩),
   ("Etsi.DmrData.UdtLastBlock", some ⟨Etsi.DmrData.UdtLastBlock, Etsi.DmrData.UdtLastBlock.read, Etsi.DmrData.UdtLastBlock.toPy⟩),
   ("Etsi.DmrData.Rate34Confirmed", some ⟨Etsi.DmrData.Rate34Confirmed, Etsi.DmrData.Rate34Confirmed.read, Etsi.DmrData.Rate34Confirmed.toPy⟩),
   ("Etsi.DmrData.Rate34LastBlockConfirmed", some ⟨Etsi.DmrData.Rate34LastBlockConfirmed, Etsi.DmrData.Rate34LastBlockConfirmed.read, Etsi.DmrData.Rate34LastBlockConfirmed.toPy⟩),
   ("Etsi.DmrData.Rate34Unconfirmed", some ⟨Etsi.DmrData.Rate34Unconfirmed, Etsi.DmrData.Rate34Unconfirmed.read, Etsi.DmrData.Rate34Unconfirmed.toPy⟩),
   ("Etsi.DmrData.Rate12LastBlockUnconfirmed", some ⟨Etsi.DmrData.Rate12LastBlockUnconfirmed, Etsi.DmrData.Rate12LastBlockUnconfirmed.read, Etsi.DmrData.Rate12LastBlockUnconfirmed.toPy⟩),
   ("Etsi.DmrData.Rate1Confirmed", some ⟨Etsi.DmrData.Rate1Confirmed, Etsi.DmrData.Rate1Confirmed.read, Etsi.DmrData.Rate1Confirmed.toPy⟩),
   ("Etsi.DmrData.Rate12Unconfirmed", some ⟨Etsi.DmrData.Rate12Unconfirmed, Etsi.DmrData.Rate12Unconfirmed.read, Etsi.DmrData.Rate12Unconfirmed.toPy⟩),
   ("Etsi.DmrData", some ⟨Etsi.DmrData, Etsi.DmrData.read, Etsi.DmrData.toPy⟩)]

/-- The classes of `Etsi.DmrDataHeader`. -/
def etsiDmrDataHeader : List (String × Option Reader) :=
  [("Etsi.DmrDataHeader.DataHeaderShortRaw", some ⟨Etsi.DmrDataHeader.DataHeaderShortRaw, Etsi.DmrDataHeader.DataHeaderShortRaw.read, Etsi.DmrDataHeader.DataHeaderShortRaw.toPy⟩),
   ("Etsi.DmrDataHeader.DataHeaderProprietary", some ⟨Etsi.DmrDataHeader.DataHeaderProprietary, Etsi.DmrDataHeader.DataHeaderProprietary.read, Etsi.DmrDataHeader.DataHeaderProprietary.toPy⟩),
   ("Etsi.DmrDataHeader.DataHeaderUndefined", some ⟨Etsi.DmrDataHeader.DataHeaderUndefined, Etsi.DmrDataHeader.DataHeaderUndefined.read, Etsi.DmrDataHeader.DataHeaderUndefined.toPy⟩),
   ("Etsi.DmrDataHeader.DataHeaderShortStatusPrecoded", some ⟨Etsi.DmrDataHeader.DataHeaderShortStatusPrecoded, Etsi.DmrDataHeader.DataHeaderShortStatusPrecoded.read, Etsi.DmrDataHeader.DataHeaderShortStatusPrecoded.toPy⟩),
   ("Etsi.DmrDataHeader.DataHeaderResponse", some ⟨Etsi.DmrDataHeader.DataHeaderResponse, Etsi.DmrDataHeader.DataHeaderResponse.read, Etsi.DmrDataHeader.DataHeaderResponse.toPy⟩),
   ("Etsi.DmrDataHeader.DataHeaderConfirmed", some ⟨Etsi.DmrDataHeader.DataHeaderConfirmed, Etsi.DmrDataHeader.DataHeaderConfirmed.read, Etsi.DmrDataHeader.DataHeaderConfirmed.toPy⟩),
   ("Etsi.DmrDataHeader.DataHeaderUnconfirmed", some ⟨Etsi.DmrDataHeader.DataHeaderUnconfirmed, Etsi.DmrDataHeader.DataHeaderUnconfirmed.read, Etsi.DmrDataHeader.DataHeaderUnconfirmed.toPy⟩),
   ("Etsi.DmrDataHeader.DataHeaderShortDefined", some ⟨Etsi.DmrDataHeader.DataHeaderShortDefined, Etsi.DmrDataHeader.DataHeaderShortDefined.read, Etsi.DmrDataHeader.DataHeaderShortDefined.toPy⟩),
   ("Etsi.DmrDataHeader.DataHeaderUdt", some ⟨Etsi.DmrDataHeader.DataHeaderUdt, Etsi.DmrDataHeader.DataHeaderUdt.read, Etsi.DmrDataHeader.DataHeaderUdt.toPy⟩),
   ("Etsi.DmrDataHeader", some ⟨Etsi.DmrDataHeader, Etsi.DmrDataHeader.read, Etsi.DmrDataHeader.toPy⟩)]

/-- The classes of `Etsi.DmrIpUdp`. -/
def etsiDmrIpUdp : List (String × Option Reader) :=
  [("Etsi.DmrIpUdp.UdpIpv4CompressedHeader", some ⟨Etsi.DmrIpUdp.UdpIpv4CompressedHeader, Etsi.DmrIpUdp.UdpIpv4CompressedHeader.read, Etsi.DmrIpUdp.UdpIpv4CompressedHeader.toPy⟩),
   ("Etsi.DmrIpUdp", some ⟨Etsi.DmrIpUdp, Etsi.DmrIpUdp.read, Etsi.DmrIpUdp.toPy⟩)]

/-- The classes of `Etsi.FullLinkControl`. -/
def etsiFullLinkControl : List (String × Option Reader) :=
  [("Etsi.FullLinkControl.GpsInfoLcPdu", some ⟨Etsi.FullLinkControl.GpsInfoLcPdu, Etsi.FullLinkControl.GpsInfoLcPdu.read, Etsi.FullLinkControl.GpsInfoLcPdu.toPy⟩),
   ("Etsi.FullLinkControl.GroupVoiceChannelUser", some ⟨Etsi.FullLinkControl.GroupVoiceChannelUser, Etsi.FullLinkControl.GroupVoiceChannelUser.read, Etsi.FullLinkControl.GroupVoiceChannelUser.toPy⟩),
   ("Etsi.FullLinkControl.UnitToUnitVoiceChannelUser", some ⟨Etsi.FullLinkControl.UnitToUnitVoiceChannelUser, Etsi.FullLinkControl.UnitToUnitVoiceChannelUser.read, Etsi.FullLinkControl.UnitToUnitVoiceChannelUser.toPy⟩),
   ("Etsi.FullLinkControl.TalkerAliasHeader", some ⟨Etsi.FullLinkControl.TalkerAliasHeader, Etsi.FullLinkControl.TalkerAliasHeader.read, Etsi.FullLinkControl.TalkerAliasHeader.toPy⟩),
   ("Etsi.FullLinkControl.TalkerAliasContinuation", some ⟨Etsi.FullLinkControl.TalkerAliasContinuation, Etsi.FullLinkControl.TalkerAliasContinuation.read, Etsi.FullLinkControl.TalkerAliasContinuation.toPy⟩),
   ("Etsi.FullLinkControl", some ⟨Etsi.FullLinkControl, Etsi.FullLinkControl.read, Etsi.FullLinkControl.toPy⟩)]

/-- The classes of `Homebrew.Homebrew2015`. -/
def homebrewHomebrew2015 : List (String × Option Reader) :=
  [("Homebrew.Homebrew2015.TypeMasterPing", some ⟨Homebrew.Homebrew2015.TypeMasterPing, Homebrew.Homebrew2015.TypeMasterPing.read, Homebrew.Homebrew2015.TypeMasterPing.toPy⟩),
   ("Homebrew.Homebrew2015.TypeRepeaterPong", some ⟨Homebrew.Homebrew2015.TypeRepeaterPong, Homebrew.Homebrew2015.TypeRepeaterPong.read, Homebrew.Homebrew2015.TypeRepeaterPong.toPy⟩),
   ("Homebrew.Homebrew2015.TypeRepeaterConfigurationOrClosing", none),
   ("Homebrew.Homebrew2015.TypeRepeaterLoginResponse", some ⟨Homebrew.Homebrew2015.TypeRepeaterLoginResponse, Homebrew.Homebrew2015.TypeRepeaterLoginResponse.read, Homebrew.Homebrew2015.TypeRepeaterLoginResponse.toPy⟩),
   ("Homebrew.Homebrew2015.TypeRepeaterLoginRequest", some ⟨Homebrew.Homebrew2015.TypeRepeaterLoginRequest, Homebrew.Homebrew2015.TypeRepeaterLoginRequest.read, Homebrew.Homebrew2015.TypeRepeaterLoginRequest.toPy⟩),
   ("Homebrew.Homebrew2015.TypeMasterNotAccept", some ⟨Homebrew.Homebrew2015.TypeMasterNotAccept, Homebrew.Homebrew2015.TypeMasterNotAccept.read, Homebrew.Homebrew2015.TypeMasterNotAccept.toPy⟩),
   ("Homebrew.Homebrew2015.TypeMasterRepeaterAck", some ⟨Homebrew.Homebrew2015.TypeMasterRepeaterAck, Homebrew.Homebrew2015.TypeMasterRepeaterAck.read, Homebrew.Homebrew2015.TypeMasterRepeaterAck.toPy⟩),
   ("Homebrew.Homebrew2015.TypeMasterClosing", some ⟨Homebrew.Homebrew2015.TypeMasterClosing, Homebrew.Homebrew2015.TypeMasterClosing.read, Homebrew.Homebrew2015.TypeMasterClosing.toPy⟩),
   ("Homebrew.Homebrew2015.TypeDmrData", some ⟨Homebrew.Homebrew2015.TypeDmrData, Homebrew.Homebrew2015.TypeDmrData.read, Homebrew.Homebrew2015.TypeDmrData.toPy⟩),
   ("Homebrew.Homebrew2015.TypeRepeaterOptions", some ⟨Homebrew.Homebrew2015.TypeRepeaterOptions, Homebrew.Homebrew2015.TypeRepeaterOptions.read, Homebrew.Homebrew2015.TypeRepeaterOptions.toPy⟩),
   ("Homebrew.Homebrew2015.TypeRepeaterClosing", some ⟨Homebrew.Homebrew2015.TypeRepeaterClosing, Homebrew.Homebrew2015.TypeRepeaterClosing.read, Homebrew.Homebrew2015.TypeRepeaterClosing.toPy⟩),
   ("Homebrew.Homebrew2015.TypeRepeaterConfiguration", some ⟨Homebrew.Homebrew2015.TypeRepeaterConfiguration, Homebrew.Homebrew2015.TypeRepeaterConfiguration.read, Homebrew.Homebrew2015.TypeRepeaterConfiguration.toPy⟩),
   ("Homebrew.Homebrew2015", some ⟨Homebrew.Homebrew2015, Homebrew.Homebrew2015.read, Homebrew.Homebrew2015.toPy⟩)]

/-- The classes of `Homebrew.Mmdvm2020`. -/
def homebrewMmdvm2020 : List (String × Option Reader) :=
  [("Homebrew.Mmdvm2020.TypeMasterPong", some ⟨Homebrew.Mmdvm2020.TypeMasterPong, Homebrew.Mmdvm2020.TypeMasterPong.read, Homebrew.Mmdvm2020.TypeMasterPong.toPy⟩),
   ("Homebrew.Mmdvm2020.TypeRadioPosition", some ⟨Homebrew.Mmdvm2020.TypeRadioPosition, Homebrew.Mmdvm2020.TypeRadioPosition.read, Homebrew.Mmdvm2020.TypeRadioPosition.toPy⟩),
   ("Homebrew.Mmdvm2020.TypeTalkerAlias", some ⟨Homebrew.Mmdvm2020.TypeTalkerAlias, Homebrew.Mmdvm2020.TypeTalkerAlias.read, Homebrew.Mmdvm2020.TypeTalkerAlias.toPy⟩),
   ("Homebrew.Mmdvm2020.TypeRepeaterConfigurationOrClosing", none),
   ("Homebrew.Mmdvm2020.TypeRepeaterLoginResponse", some ⟨Homebrew.Mmdvm2020.TypeRepeaterLoginResponse, Homebrew.Mmdvm2020.TypeRepeaterLoginResponse.read, Homebrew.Mmdvm2020.TypeRepeaterLoginResponse.toPy⟩),
   ("Homebrew.Mmdvm2020.TypeRepeaterLoginRequest", some ⟨Homebrew.Mmdvm2020.TypeRepeaterLoginRequest, Homebrew.Mmdvm2020.TypeRepeaterLoginRequest.read, Homebrew.Mmdvm2020.TypeRepeaterLoginRequest.toPy⟩),
   ("Homebrew.Mmdvm2020.TypeMasterNotAccept", some ⟨Homebrew.Mmdvm2020.TypeMasterNotAccept, Homebrew.Mmdvm2020.TypeMasterNotAccept.read, Homebrew.Mmdvm2020.TypeMasterNotAccept.toPy⟩),
   ("Homebrew.Mmdvm2020.TypeUnknown", some ⟨Homebrew.Mmdvm2020.TypeUnknown, Homebrew.Mmdvm2020.TypeUnknown.read, Homebrew.Mmdvm2020.TypeUnknown.toPy⟩),
   ("Homebrew.Mmdvm2020.TypeMasterRepeaterAck", some ⟨Homebrew.Mmdvm2020.TypeMasterRepeaterAck, Homebrew.Mmdvm2020.TypeMasterRepeaterAck.read, Homebrew.Mmdvm2020.TypeMasterRepeaterAck.toPy⟩),
   ("Homebrew.Mmdvm2020.TypeMasterClosing", some ⟨Homebrew.Mmdvm2020.TypeMasterClosing, Homebrew.Mmdvm2020.TypeMasterClosing.read, Homebrew.Mmdvm2020.TypeMasterClosing.toPy⟩),
   ("Homebrew.Mmdvm2020.TypeDmrData", some ⟨Homebrew.Mmdvm2020.TypeDmrData, Homebrew.Mmdvm2020.TypeDmrData.read, Homebrew.Mmdvm2020.TypeDmrData.toPy⟩),
   ("Homebrew.Mmdvm2020.TypeRepeaterBeacon", some ⟨Homebrew.Mmdvm2020.TypeRepeaterBeacon, Homebrew.Mmdvm2020.TypeRepeaterBeacon.read, Homebrew.Mmdvm2020.TypeRepeaterBeacon.toPy⟩),
   ("Homebrew.Mmdvm2020.TypeRepeaterOptions", some ⟨Homebrew.Mmdvm2020.TypeRepeaterOptions, Homebrew.Mmdvm2020.TypeRepeaterOptions.read, Homebrew.Mmdvm2020.TypeRepeaterOptions.toPy⟩),
   ("Homebrew.Mmdvm2020.TypeRepeaterClosing", some ⟨Homebrew.Mmdvm2020.TypeRepeaterClosing, Homebrew.Mmdvm2020.TypeRepeaterClosing.read, Homebrew.Mmdvm2020.TypeRepeaterClosing.toPy⟩),
   ("Homebrew.Mmdvm2020.TypeRepeaterConfiguration", some ⟨Homebrew.Mmdvm2020.TypeRepeaterConfiguration, Homebrew.Mmdvm2020.TypeRepeaterConfiguration.read, Homebrew.Mmdvm2020.TypeRepeaterConfiguration.toPy⟩),
   ("Homebrew.Mmdvm2020.TypeRepeaterPing", some ⟨Homebrew.Mmdvm2020.TypeRepeaterPing, Homebrew.Mmdvm2020.TypeRepeaterPing.read, Homebrew.Mmdvm2020.TypeRepeaterPing.toPy⟩),
   ("Homebrew.Mmdvm2020", some ⟨Homebrew.Mmdvm2020, Homebrew.Mmdvm2020.read, Homebrew.Mmdvm2020.toPy⟩)]

/-- The classes of `Motorola.AutomaticRegistrationService`. -/
def motorolaAutomaticRegistrationService : List (String × Option Reader) :=
  [("Motorola.AutomaticRegistrationService.AcknowledgementMessage", none),
   ("Motorola.AutomaticRegistrationService.DeviceRegistrationMessageHeader", some ⟨Motorola.AutomaticRegistrationService.DeviceRegistrationMessageHeader, Motorola.AutomaticRegistrationService.DeviceRegistrationMessageHeader.read, Motorola.AutomaticRegistrationService.DeviceRegistrationMessageHeader.toPy⟩),
   ("Motorola.AutomaticRegistrationService.MessageHeaderBits", some ⟨Motorola.AutomaticRegistrationService.MessageHeaderBits, Motorola.AutomaticRegistrationService.MessageHeaderBits.read, Motorola.AutomaticRegistrationService.MessageHeaderBits.toPy⟩),
   ("Motorola.AutomaticRegistrationService.DeviceDeregistrationMessage", some ⟨Motorola.AutomaticRegistrationService.DeviceDeregistrationMessage, Motorola.AutomaticRegistrationService.DeviceDeregistrationMessage.read, Motorola.AutomaticRegistrationService.DeviceDeregistrationMessage.toPy⟩),
   ("Motorola.AutomaticRegistrationService.DeviceRegistrationAcknowledgementFailureReason", some ⟨Motorola.AutomaticRegistrationService.DeviceRegistrationAcknowledgementFailureReason, Motorola.AutomaticRegistrationService.DeviceRegistrationAcknowledgementFailureReason.read, Motorola.AutomaticRegistrationService.DeviceRegistrationAcknowledgementFailureReason.toPy⟩),
   ("Motorola.AutomaticRegistrationService.DeviceRegistrationMessage", none),
   ("Motorola.AutomaticRegistrationService.ArsQueryMessage", some ⟨Motorola.AutomaticRegistrationService.ArsQueryMessage, Motorola.AutomaticRegistrationService.ArsQueryMessage.read, Motorola.AutomaticRegistrationService.ArsQueryMessage.toPy⟩),
   ("Motorola.AutomaticRegistrationService.DeviceRegistrationAcknowledgementHeader", some ⟨Motorola.AutomaticRegistrationService.DeviceRegistrationAcknowledgementHeader, Motorola.AutomaticRegistrationService.DeviceRegistrationAcknowledgementHeader.read, Motorola.AutomaticRegistrationService.DeviceRegistrationAcknowledgementHeader.toPy⟩),
   ("Motorola.AutomaticRegistrationService", some ⟨Motorola.AutomaticRegistrationService, Motorola.AutomaticRegistrationService.read, Motorola.AutomaticRegistrationService.toPy⟩)]

/-- The classes of `Motorola.MotorolaBinaryXml`. -/
def motorolaMotorolaBinaryXml : List (String × Option Reader) :=
  [("Motorola.MotorolaBinaryXml.LrrpImmediateRequestNcdt", some ⟨Motorola.MotorolaBinaryXml.LrrpImmediateRequestNcdt, Motorola.MotorolaBinaryXml.LrrpImmediateRequestNcdt.read, Motorola.MotorolaBinaryXml.LrrpImmediateRequestNcdt.toPy⟩),
   ("Motorola.MotorolaBinaryXml.Opaque3byteValue", some ⟨Motorola.MotorolaBinaryXml.Opaque3byteValue, Motorola.MotorolaBinaryXml.Opaque3byteValue.read, Motorola.MotorolaBinaryXml.Opaque3byteValue.toPy⟩),
   ("Motorola.MotorolaBinaryXml.LrrpElement", some ⟨Motorola.MotorolaBinaryXml.LrrpElement, Motorola.MotorolaBinaryXml.LrrpElement.read, Motorola.MotorolaBinaryXml.LrrpElement.toPy⟩),
   ("Motorola.MotorolaBinaryXml.Sfloatvar", some ⟨Motorola.MotorolaBinaryXml.Sfloatvar, Motorola.MotorolaBinaryXml.Sfloatvar.read, Motorola.MotorolaBinaryXml.Sfloatvar.toPy⟩),
   ("Motorola.MotorolaBinaryXml.Opaque5byteValue", some ⟨Motorola.MotorolaBinaryXml.Opaque5byteValue, Motorola.MotorolaBinaryXml.Opaque5byteValue.read, Motorola.MotorolaBinaryXml.Opaque5byteValue.toPy⟩),
   ("Motorola.MotorolaBinaryXml.Opaque1byteValue", some ⟨Motorola.MotorolaBinaryXml.Opaque1byteValue, Motorola.MotorolaBinaryXml.Opaque1byteValue.read, Motorola.MotorolaBinaryXml.Opaque1byteValue.toPy⟩),
   ("Motorola.MotorolaBinaryXml.Uintvar", some ⟨Motorola.MotorolaBinaryXml.Uintvar, Motorola.MotorolaBinaryXml.Uintvar.read, Motorola.MotorolaBinaryXml.Uintvar.toPy⟩),
   ("Motorola.MotorolaBinaryXml.Ufloatvar", some ⟨Motorola.MotorolaBinaryXml.Ufloatvar, Motorola.MotorolaBinaryXml.Ufloatvar.read, Motorola.MotorolaBinaryXml.Ufloatvar.toPy⟩),
   ("Motorola.MotorolaBinaryXml.ConstantDataTableReference", some ⟨Motorola.MotorolaBinaryXml.ConstantDataTableReference, Motorola.MotorolaBinaryXml.ConstantDataTableReference.read, Motorola.MotorolaBinaryXml.ConstantDataTableReference.toPy⟩),
   ("Motorola.MotorolaBinaryXml.MbxmlDocument", some ⟨Motorola.MotorolaBinaryXml.MbxmlDocument, Motorola.MotorolaBinaryXml.MbxmlDocument.read, Motorola.MotorolaBinaryXml.MbxmlDocument.toPy⟩),
   ("Motorola.MotorolaBinaryXml.OpaqueElementValue", some ⟨Motorola.MotorolaBinaryXml.OpaqueElementValue, Motorola.MotorolaBinaryXml.OpaqueElementValue.read, Motorola.MotorolaBinaryXml.OpaqueElementValue.toPy⟩),
   ("Motorola.MotorolaBinaryXml.Opaque2byteValue", some ⟨Motorola.MotorolaBinaryXml.Opaque2byteValue, Motorola.MotorolaBinaryXml.Opaque2byteValue.read, Motorola.MotorolaBinaryXml.Opaque2byteValue.toPy⟩),
   ("Motorola.MotorolaBinaryXml.Sintvar", some ⟨Motorola.MotorolaBinaryXml.Sintvar, Motorola.MotorolaBinaryXml.Sintvar.read, Motorola.MotorolaBinaryXml.Sintvar.toPy⟩),
   ("Motorola.MotorolaBinaryXml.Opaque4byteValue", some ⟨Motorola.MotorolaBinaryXml.Opaque4byteValue, Motorola.MotorolaBinaryXml.Opaque4byteValue.read, Motorola.MotorolaBinaryXml.Opaque4byteValue.toPy⟩),
   ("Motorola.MotorolaBinaryXml", some ⟨Motorola.MotorolaBinaryXml, Motorola.MotorolaBinaryXml.read, Motorola.MotorolaBinaryXml.toPy⟩)]

/-- The classes of `Motorola.TextMessageProtocol`. -/
def motorolaTextMessageProtocol : List (String × Option Reader) :=
  [("Motorola.TextMessageProtocol.TextMessage", none),
   ("Motorola.TextMessageProtocol.TmsServiceAvailability", none),
   ("Motorola.TextMessageProtocol.TextMessageHeaderSequenceAndEncoding", some ⟨Motorola.TextMessageProtocol.TextMessageHeaderSequenceAndEncoding, Motorola.TextMessageProtocol.TextMessageHeaderSequenceAndEncoding.read, Motorola.TextMessageProtocol.TextMessageHeaderSequenceAndEncoding.toPy⟩),
   ("Motorola.TextMessageProtocol.MessageHeaderBits", some ⟨Motorola.TextMessageProtocol.MessageHeaderBits, Motorola.TextMessageProtocol.MessageHeaderBits.read, Motorola.TextMessageProtocol.MessageHeaderBits.toPy⟩),
   ("Motorola.TextMessageProtocol.TmsAcknowledgement", none),
   ("Motorola.TextMessageProtocol.TmsAcknowledgementHeaderSequenceNumber", some ⟨Motorola.TextMessageProtocol.TmsAcknowledgementHeaderSequenceNumber, Motorola.TextMessageProtocol.TmsAcknowledgementHeaderSequenceNumber.read, Motorola.TextMessageProtocol.TmsAcknowledgementHeaderSequenceNumber.toPy⟩),
   ("Motorola.TextMessageProtocol.TmsServiceAvailabilityAcknowledgement", some ⟨Motorola.TextMessageProtocol.TmsServiceAvailabilityAcknowledgement, Motorola.TextMessageProtocol.TmsServiceAvailabilityAcknowledgement.read, Motorola.TextMessageProtocol.TmsServiceAvailabilityAcknowledgement.toPy⟩),
   ("Motorola.TextMessageProtocol.TmsServiceAvailabilityHeader", some ⟨Motorola.TextMessageProtocol.TmsServiceAvailabilityHeader, Motorola.TextMessageProtocol.TmsServiceAvailabilityHeader.read, Motorola.TextMessageProtocol.TmsServiceAvailabilityHeader.toPy⟩),
   ("Motorola.TextMessageProtocol", some ⟨Motorola.TextMessageProtocol, Motorola.TextMessageProtocol.read, Motorola.TextMessageProtocol.toPy⟩)]

/-- The classes of the library. -/
def table : List (String × Option Reader) :=
  [hyteraDataDeliveryStates, hyteraDataTransmitProtocol, hyteraDatetimestring, hyteraGpsdata, hyteraHyteraDmrApplicationProtocol, hyteraHyteraRadioNetworkProtocol, hyteraHyteraSimpleTransportReliabilityProtocol, hyteraIntervalstring, hyteraIpSiteConnectHeartbeat, hyteraIpSiteConnectProtocol, hyteraLocationProtocol, hyteraRadioControlProtocol, hyteraRadioId, hyteraRadioIp, hyteraRadioRegistrationService, hyteraRealTimeTransportProtocol, hyteraTelemetryProtocol, hyteraTextMessageProtocol, etsiDmrCsbk, etsiDmrData, etsiDmrDataHeader, etsiDmrIpUdp, etsiFullLinkControl, homebrewHomebrew2015, homebrewMmdvm2020, motorolaAutomaticRegistrationService, motorolaMotorolaBinaryXml, motorolaTextMessageProtocol].flatten

set_option maxRecDepth 20000 in
/-- These are all classes. -/
theorem table_complete : table.map Prod.fst = library.classes.map ClassDef.name := rfl

namespace ConformHytera

theorem DataDeliveryStates_constructs : Constructs "Hytera.DataDeliveryStates" ⟨Hytera.DataDeliveryStates, Hytera.DataDeliveryStates.read, Hytera.DataDeliveryStates.toPy⟩ :=
  constructs _ 4 (by decide) DataDeliveryStates_class rfl (fun _ => ⟨_, _, rfl⟩) Hytera.DataDeliveryStates.toPy_regular
    fun m H S k hk s _ => DataDeliveryStates_builds m H S k hk s (.pv .none) (.pv .none)

end ConformHytera

theorem hyteraDataDeliveryStates_claims : Each Claim hyteraDataDeliveryStates :=
  ⟨ConformHytera.DataDeliveryStates_constructs, trivial⟩

namespace ConformHytera

theorem DataTransmitProtocol_LastDataSlice_constructs : Constructs "Hytera.DataTransmitProtocol.LastDataSlice" ⟨Hytera.DataTransmitProtocol.LastDataSlice, Hytera.DataTransmitProtocol.LastDataSlice.read, Hytera.DataTransmitProtocol.LastDataSlice.toPy⟩ :=
  constructs _ 4 (by decide) DataTransmitProtocol_LastDataSlice_class rfl (fun _ => ⟨_, _, rfl⟩) Hytera.DataTransmitProtocol.LastDataSlice.toPy_regular
    fun m H S k hk s _ => DataTransmitProtocol_LastDataSlice_builds m H S k hk s (.pv .none) (.pv .none)

theorem DataTransmitProtocol_DtpRequest_alone : Unusable "Hytera.DataTransmitProtocol.DtpRequest" := by
  refine unusable 4 (by decide) DataTransmitProtocol_DtpRequest_class rfl fun m H S k hk s => ?_
  rw [construct_eq library _ "Hytera.DataTransmitProtocol.DtpRequest" _ _ DataTransmitProtocol_DtpRequest_class rfl rfl]
  py_run [onStream_set _ _ _ _ hk, hk, property_of _ _ _ _ DataTransmitProtocol_DtpRequest_class, Source.Hytera.DataTransmitProtocol.DtpRequest, Dmr.Hytera.RadioIp.read]
  repeat (first | (refine after_ends onlyEof_readU1 _ fun _ _ => ?_) | (refine after_ends onlyEof_readU2be _ fun _ _ => ?_))
  exact ⟨_, _, rfl, .inl rfl⟩

theorem DataTransmitProtocol_DataSliceAnswer_constructs : Constructs "Hytera.DataTransmitProtocol.DataSliceAnswer" ⟨Hytera.DataTransmitProtocol.DataSliceAnswer, Hytera.DataTransmitProtocol.DataSliceAnswer.read, Hytera.DataTransmitProtocol.DataSliceAnswer.toPy⟩ :=
  constructs _ 4 (by decide) DataTransmitProtocol_DataSliceAnswer_class rfl (fun _ => ⟨_, _, rfl⟩) Hytera.DataTransmitProtocol.DataSliceAnswer.toPy_regular
    fun m H S k hk s _ => DataTransmitProtocol_DataSliceAnswer_builds m H S k hk s (.pv .none) (.pv .none)

theorem DataTransmitProtocol_DataSliceTransmit_alone : Unusable "Hytera.DataTransmitProtocol.DataSliceTransmit" := by
  refine unusable 4 (by decide) DataTransmitProtocol_DataSliceTransmit_class rfl fun m H S k hk s => ?_
  rw [construct_eq library _ "Hytera.DataTransmitProtocol.DataSliceTransmit" _ _ DataTransmitProtocol_DataSliceTransmit_class rfl rfl]
  py_run [onStream_set _ _ _ _ hk, hk, property_of _ _ _ _ DataTransmitProtocol_DataSliceTransmit_class, Source.Hytera.DataTransmitProtocol.DataSliceTransmit, Dmr.Hytera.RadioIp.read]
  repeat (first | (refine after_ends onlyEof_readU1 _ fun _ _ => ?_) | (refine after_ends onlyEof_readU2be _ fun _ _ => ?_))
  exact ⟨_, _, rfl, .inl rfl⟩

theorem DataTransmitProtocol_LastDataSliceAnswer_constructs : Constructs "Hytera.DataTransmitProtocol.LastDataSliceAnswer" ⟨Hytera.DataTransmitProtocol.LastDataSliceAnswer, Hytera.DataTransmitProtocol.LastDataSliceAnswer.read, Hytera.DataTransmitProtocol.LastDataSliceAnswer.toPy⟩ :=
  constructs _ 4 (by decide) DataTransmitProtocol_LastDataSliceAnswer_class rfl (fun _ => ⟨_, _, rfl⟩) Hytera.DataTransmitProtocol.LastDataSliceAnswer.toPy_regular
    fun m H S k hk s _ => DataTransmitProtocol_LastDataSliceAnswer_builds m H S k hk s (.pv .none) (.pv .none)

theorem DataTransmitProtocol_DtpAnswer_constructs : Constructs "Hytera.DataTransmitProtocol.DtpAnswer" ⟨Hytera.DataTransmitProtocol.DtpAnswer, Hytera.DataTransmitProtocol.DtpAnswer.read, Hytera.DataTransmitProtocol.DtpAnswer.toPy⟩ :=
  constructs _ 4 (by decide) DataTransmitProtocol_DtpAnswer_class rfl (fun _ => ⟨_, _, rfl⟩) Hytera.DataTransmitProtocol.DtpAnswer.toPy_regular
    fun m H S k hk s _ => DataTransmitProtocol_DtpAnswer_builds m H S k hk s (.pv .none) (.pv .none)

theorem DataTransmitProtocol_constructs : Constructs "Hytera.DataTransmitProtocol" ⟨Hytera.DataTransmitProtocol, Hytera.DataTransmitProtocol.read, Hytera.DataTransmitProtocol.toPy⟩ :=
  constructs _ 6 (by decide) DataTransmitProtocol_class rfl (fun _ => ⟨_, _, rfl⟩) Hytera.DataTransmitProtocol.toPy_regular
    fun m H S k hk s _ => DataTransmitProtocol_builds m H S k hk s (.pv .none) (.pv .none)

end ConformHytera

theorem hyteraDataTransmitProtocol_claims : Each Claim hyteraDataTransmitProtocol :=
  ⟨ConformHytera.DataTransmitProtocol_LastDataSlice_constructs, ConformHytera.DataTransmitProtocol_DtpRequest_alone, ConformHytera.DataTransmitProtocol_DataSliceAnswer_constructs, ConformHytera.DataTransmitProtocol_DataSliceTransmit_alone, ConformHytera.DataTransmitProtocol_LastDataSliceAnswer_constructs, ConformHytera.DataTransmitProtocol_DtpAnswer_constructs, ConformHytera.DataTransmitProtocol_constructs, trivial⟩

namespace ConformHytera

theorem Datetimestring_constructs : Constructs "Hytera.Datetimestring" ⟨Hytera.Datetimestring, Hytera.Datetimestring.read, Hytera.Datetimestring.toPy⟩ :=
  constructs _ 2 (by decide) Datetimestring_class rfl (fun _ => ⟨_, _, rfl⟩) Hytera.Datetimestring.toPy_regular
    fun m H S k hk s _ => Datetimestring_builds m H S k hk s (.pv .none) (.pv .none)

end ConformHytera

theorem hyteraDatetimestring_claims : Each Claim hyteraDatetimestring :=
  ⟨ConformHytera.Datetimestring_constructs, trivial⟩

namespace ConformHytera

theorem Gpsdata_constructs : Constructs "Hytera.Gpsdata" ⟨Hytera.Gpsdata, Hytera.Gpsdata.read, Hytera.Gpsdata.toPy⟩ :=
  constructs _ 2 (by decide) Gpsdata_class rfl (fun _ => ⟨_, _, rfl⟩) Hytera.Gpsdata.toPy_regular
    fun m H S k hk s _ => Gpsdata_builds m H S k hk s (.pv .none) (.pv .none)

end ConformHytera

theorem hyteraGpsdata_claims : Each Claim hyteraGpsdata :=
  ⟨ConformHytera.Gpsdata_constructs, trivial⟩

namespace ConformHytera

theorem HyteraDmrApplicationProtocol_UndefinedProtocol_constructs : Constructs "Hytera.HyteraDmrApplicationProtocol.UndefinedProtocol" ⟨Hytera.HyteraDmrApplicationProtocol.UndefinedProtocol, Hytera.HyteraDmrApplicationProtocol.UndefinedProtocol.read, Hytera.HyteraDmrApplicationProtocol.UndefinedProtocol.toPy⟩ :=
  constructs _ 2 (by decide) HyteraDmrApplicationProtocol_UndefinedProtocol_class rfl (fun _ => ⟨_, _, rfl⟩) Hytera.HyteraDmrApplicationProtocol.UndefinedProtocol.toPy_regular
    fun m H S k hk s _ => HyteraDmrApplicationProtocol_UndefinedProtocol_builds m H S k hk s (.pv .none) (.pv .none)

theorem HyteraDmrApplicationProtocol_constructs : Constructs "Hytera.HyteraDmrApplicationProtocol" ⟨Hytera.HyteraDmrApplicationProtocol, Hytera.HyteraDmrApplicationProtocol.read, Hytera.HyteraDmrApplicationProtocol.toPy⟩ :=
  constructs _ 10 (by decide) HyteraDmrApplicationProtocol_class rfl (fun _ => ⟨_, _, rfl⟩) Hytera.HyteraDmrApplicationProtocol.toPy_regular
    fun m H S k hk s _ => HyteraDmrApplicationProtocol_builds m H S k hk s (.pv .none) (.pv .none)

end ConformHytera

theorem hyteraHyteraDmrApplicationProtocol_claims : Each Claim hyteraHyteraDmrApplicationProtocol :=
  ⟨ConformHytera.HyteraDmrApplicationProtocol_UndefinedProtocol_constructs, ConformHytera.HyteraDmrApplicationProtocol_constructs, trivial⟩

namespace ConformHytera

theorem HyteraRadioNetworkProtocol_constructs : Constructs "Hytera.HyteraRadioNetworkProtocol" ⟨Hytera.HyteraRadioNetworkProtocol, Hytera.HyteraRadioNetworkProtocol.read, Hytera.HyteraRadioNetworkProtocol.toPy⟩ :=
  constructs _ 12 (by decide) HyteraRadioNetworkProtocol_class rfl (fun _ => ⟨_, _, rfl⟩) Hytera.HyteraRadioNetworkProtocol.toPy_regular
    fun m H S k hk s _ => HyteraRadioNetworkProtocol_builds m H S k hk s (.pv .none) (.pv .none)

end ConformHytera

theorem hyteraHyteraRadioNetworkProtocol_claims : Each Claim hyteraHyteraRadioNetworkProtocol :=
  ⟨ConformHytera.HyteraRadioNetworkProtocol_constructs, trivial⟩

namespace ConformHytera

theorem HyteraSimpleTransportReliabilityProtocol_Option_constructs : Constructs "Hytera.HyteraSimpleTransportReliabilityProtocol.Option" ⟨Hytera.HyteraSimpleTransportReliabilityProtocol.Option, Hytera.HyteraSimpleTransportReliabilityProtocol.Option.read, Hytera.HyteraSimpleTransportReliabilityProtocol.Option.toPy⟩ :=
  constructs _ 2 (by decide) HyteraSimpleTransportReliabilityProtocol_Option_class rfl (fun _ => ⟨_, _, rfl⟩) Hytera.HyteraSimpleTransportReliabilityProtocol.Option.toPy_regular
    fun m H S k hk s _ => HyteraSimpleTransportReliabilityProtocol_Option_builds m H S k hk s (.pv .none) (.pv .none)

theorem HyteraSimpleTransportReliabilityProtocol_constructs : Constructs "Hytera.HyteraSimpleTransportReliabilityProtocol" ⟨Hytera.HyteraSimpleTransportReliabilityProtocol, Hytera.HyteraSimpleTransportReliabilityProtocol.read, Hytera.HyteraSimpleTransportReliabilityProtocol.toPy⟩ :=
  constructs _ 12 (by decide) HyteraSimpleTransportReliabilityProtocol_class rfl (fun _ => ⟨_, _, rfl⟩) Hytera.HyteraSimpleTransportReliabilityProtocol.toPy_regular
    fun m H S k hk s _ => HyteraSimpleTransportReliabilityProtocol_builds m H S k hk s (.pv .none) (.pv .none)

end ConformHytera

theorem hyteraHyteraSimpleTransportReliabilityProtocol_claims : Each Claim hyteraHyteraSimpleTransportReliabilityProtocol :=
  ⟨ConformHytera.HyteraSimpleTransportReliabilityProtocol_Option_constructs, ConformHytera.HyteraSimpleTransportReliabilityProtocol_constructs, trivial⟩

namespace ConformHytera

theorem Intervalstring_constructs : Constructs "Hytera.Intervalstring" ⟨Hytera.Intervalstring, Hytera.Intervalstring.read, Hytera.Intervalstring.toPy⟩ :=
  constructs _ 2 (by decide) Intervalstring_class rfl (fun _ => ⟨_, _, rfl⟩) Hytera.Intervalstring.toPy_regular
    fun m H S k hk s _ => Intervalstring_builds m H S k hk s (.pv .none) (.pv .none)

end ConformHytera

theorem hyteraIntervalstring_claims : Each Claim hyteraIntervalstring :=
  ⟨ConformHytera.Intervalstring_constructs, trivial⟩

namespace ConformHytera

theorem IpSiteConnectHeartbeat_Keepalive_constructs : Constructs "Hytera.IpSiteConnectHeartbeat.Keepalive" ⟨Hytera.IpSiteConnectHeartbeat.Keepalive, Hytera.IpSiteConnectHeartbeat.Keepalive.read, Hytera.IpSiteConnectHeartbeat.Keepalive.toPy⟩ :=
  constructs _ 2 (by decide) IpSiteConnectHeartbeat_Keepalive_class rfl (fun _ => ⟨_, _, rfl⟩) Hytera.IpSiteConnectHeartbeat.Keepalive.toPy_regular
    fun m H S k hk s _ => IpSiteConnectHeartbeat_Keepalive_builds m H S k hk s (.pv .none) (.pv .none)

theorem IpSiteConnectHeartbeat_PingPong_constructs : Constructs "Hytera.IpSiteConnectHeartbeat.PingPong" ⟨Hytera.IpSiteConnectHeartbeat.PingPong, Hytera.IpSiteConnectHeartbeat.PingPong.read, Hytera.IpSiteConnectHeartbeat.PingPong.toPy⟩ :=
  constructs _ 2 (by decide) IpSiteConnectHeartbeat_PingPong_class rfl (fun _ => ⟨_, _, rfl⟩) Hytera.IpSiteConnectHeartbeat.PingPong.toPy_regular
    fun m H S k hk s _ => IpSiteConnectHeartbeat_PingPong_builds m H S k hk s (.pv .none) (.pv .none)

theorem IpSiteConnectHeartbeat_Unknown_constructs : Constructs "Hytera.IpSiteConnectHeartbeat.Unknown" ⟨Hytera.IpSiteConnectHeartbeat.Unknown, Hytera.IpSiteConnectHeartbeat.Unknown.read, Hytera.IpSiteConnectHeartbeat.Unknown.toPy⟩ :=
  constructs _ 2 (by decide) IpSiteConnectHeartbeat_Unknown_class rfl (fun _ => ⟨_, _, rfl⟩) Hytera.IpSiteConnectHeartbeat.Unknown.toPy_regular
    fun m H S k hk s _ => IpSiteConnectHeartbeat_Unknown_builds m H S k hk s (.pv .none) (.pv .none)

theorem IpSiteConnectHeartbeat_constructs : Constructs "Hytera.IpSiteConnectHeartbeat" ⟨Hytera.IpSiteConnectHeartbeat, Hytera.IpSiteConnectHeartbeat.read, Hytera.IpSiteConnectHeartbeat.toPy⟩ :=
  constructs _ 4 (by decide) IpSiteConnectHeartbeat_class rfl (fun _ => ⟨_, _, rfl⟩) Hytera.IpSiteConnectHeartbeat.toPy_regular
    fun m H S k hk s _ => IpSiteConnectHeartbeat_builds m H S k hk s (.pv .none) (.pv .none)

end ConformHytera

theorem hyteraIpSiteConnectHeartbeat_claims : Each Claim hyteraIpSiteConnectHeartbeat :=
  ⟨ConformHytera.IpSiteConnectHeartbeat_Keepalive_constructs, ConformHytera.IpSiteConnectHeartbeat_PingPong_constructs, ConformHytera.IpSiteConnectHeartbeat_Unknown_constructs, ConformHytera.IpSiteConnectHeartbeat_constructs, trivial⟩

namespace ConformHytera

theorem IpSiteConnectProtocol_constructs : Constructs "Hytera.IpSiteConnectProtocol" ⟨Hytera.IpSiteConnectProtocol, Hytera.IpSiteConnectProtocol.read, Hytera.IpSiteConnectProtocol.toPy⟩ :=
  constructs _ 2 (by decide) IpSiteConnectProtocol_class rfl (fun _ => ⟨_, _, rfl⟩) Hytera.IpSiteConnectProtocol.toPy_regular
    fun m H S k hk s _ => IpSiteConnectProtocol_builds m H S k hk s (.pv .none) (.pv .none)

end ConformHytera

theorem hyteraIpSiteConnectProtocol_claims : Each Claim hyteraIpSiteConnectProtocol :=
  ⟨ConformHytera.IpSiteConnectProtocol_constructs, trivial⟩

namespace ConformHytera

theorem LocationProtocol_TriggeredReportStopAnswer_constructs : Constructs "Hytera.LocationProtocol.TriggeredReportStopAnswer" ⟨Hytera.LocationProtocol.TriggeredReportStopAnswer, Hytera.LocationProtocol.TriggeredReportStopAnswer.read, Hytera.LocationProtocol.TriggeredReportStopAnswer.toPy⟩ :=
  constructs _ 4 (by decide) LocationProtocol_TriggeredReportStopAnswer_class rfl (fun _ => ⟨_, _, rfl⟩) Hytera.LocationProtocol.TriggeredReportStopAnswer.toPy_regular
    fun m H S k hk s _ => LocationProtocol_TriggeredReportStopAnswer_builds m H S k hk s (.pv .none) (.pv .none)

theorem LocationProtocol_ConditionReportRequest_constructs : Constructs "Hytera.LocationProtocol.ConditionReportRequest" ⟨Hytera.LocationProtocol.ConditionReportRequest, Hytera.LocationProtocol.ConditionReportRequest.read, Hytera.LocationProtocol.ConditionReportRequest.toPy⟩ :=
  constructs _ 4 (by decide) LocationProtocol_ConditionReportRequest_class rfl (fun _ => ⟨_, _, rfl⟩) Hytera.LocationProtocol.ConditionReportRequest.toPy_regular
    fun m H S k hk s _ => LocationProtocol_ConditionReportRequest_builds m H S k hk s (.pv .none) (.pv .none)

theorem LocationProtocol_ConditionQuickGpsRequest_constructs : Constructs "Hytera.LocationProtocol.ConditionQuickGpsRequest" ⟨Hytera.LocationProtocol.ConditionQuickGpsRequest, Hytera.LocationProtocol.ConditionQuickGpsRequest.read, Hytera.LocationProtocol.ConditionQuickGpsRequest.toPy⟩ :=
  constructs _ 6 (by decide) LocationProtocol_ConditionQuickGpsRequest_class rfl (fun _ => ⟨_, _, rfl⟩) Hytera.LocationProtocol.ConditionQuickGpsRequest.toPy_regular
    fun m H S k hk s _ => LocationProtocol_ConditionQuickGpsRequest_builds m H S k hk s (.pv .none) (.pv .none)

theorem LocationProtocol_ConditionReport_constructs : Constructs "Hytera.LocationProtocol.ConditionReport" ⟨Hytera.LocationProtocol.ConditionReport, Hytera.LocationProtocol.ConditionReport.read, Hytera.LocationProtocol.ConditionReport.toPy⟩ :=
  constructs _ 4 (by decide) LocationProtocol_ConditionReport_class rfl (fun _ => ⟨_, _, rfl⟩) Hytera.LocationProtocol.ConditionReport.toPy_regular
    fun m H S k hk s _ => LocationProtocol_ConditionReport_builds m H S k hk s (.pv .none) (.pv .none)

theorem LocationProtocol_EmergencyReport_constructs : Constructs "Hytera.LocationProtocol.EmergencyReport" ⟨Hytera.LocationProtocol.EmergencyReport, Hytera.LocationProtocol.EmergencyReport.read, Hytera.LocationProtocol.EmergencyReport.toPy⟩ :=
  constructs _ 4 (by decide) LocationProtocol_EmergencyReport_class rfl (fun _ => ⟨_, _, rfl⟩) Hytera.LocationProtocol.EmergencyReport.toPy_regular
    fun m H S k hk s _ => LocationProtocol_EmergencyReport_builds m H S k hk s (.pv .none) (.pv .none)

theorem LocationProtocol_TriggeredReportAnswer_constructs : Constructs "Hytera.LocationProtocol.TriggeredReportAnswer" ⟨Hytera.LocationProtocol.TriggeredReportAnswer, Hytera.LocationProtocol.TriggeredReportAnswer.read, Hytera.LocationProtocol.TriggeredReportAnswer.toPy⟩ :=
  constructs _ 4 (by decide) LocationProtocol_TriggeredReportAnswer_class rfl (fun _ => ⟨_, _, rfl⟩) Hytera.LocationProtocol.TriggeredReportAnswer.toPy_regular
    fun m H S k hk s _ => LocationProtocol_TriggeredReportAnswer_builds m H S k hk s (.pv .none) (.pv .none)

theorem LocationProtocol_StandardAnswerWithRssi_constructs : Constructs "Hytera.LocationProtocol.StandardAnswerWithRssi" ⟨Hytera.LocationProtocol.StandardAnswerWithRssi, Hytera.LocationProtocol.StandardAnswerWithRssi.read, Hytera.LocationProtocol.StandardAnswerWithRssi.toPy⟩ :=
  constructs _ 4 (by decide) LocationProtocol_StandardAnswerWithRssi_class rfl (fun _ => ⟨_, _, rfl⟩) Hytera.LocationProtocol.StandardAnswerWithRssi.toPy_regular
    fun m H S k hk s _ => LocationProtocol_StandardAnswerWithRssi_builds m H S k hk s (.pv .none) (.pv .none)

theorem LocationProtocol_QuickGpsPayload_constructs : Constructs "Hytera.LocationProtocol.QuickGpsPayload" ⟨Hytera.LocationProtocol.QuickGpsPayload, Hytera.LocationProtocol.QuickGpsPayload.read, Hytera.LocationProtocol.QuickGpsPayload.toPy⟩ :=
  constructs _ 4 (by decide) LocationProtocol_QuickGpsPayload_class rfl (fun _ => ⟨_, _, rfl⟩) Hytera.LocationProtocol.QuickGpsPayload.toPy_regular
    fun m H S k hk s _ => LocationProtocol_QuickGpsPayload_builds m H S k hk s (.pv .none) (.pv .none)

theorem LocationProtocol_StandardRequest_constructs : Constructs "Hytera.LocationProtocol.StandardRequest" ⟨Hytera.LocationProtocol.StandardRequest, Hytera.LocationProtocol.StandardRequest.read, Hytera.LocationProtocol.StandardRequest.toPy⟩ :=
  constructs _ 4 (by decide) LocationProtocol_StandardRequest_class rfl (fun _ => ⟨_, _, rfl⟩) Hytera.LocationProtocol.StandardRequest.toPy_regular
    fun m H S k hk s _ => LocationProtocol_StandardRequest_builds m H S k hk s (.pv .none) (.pv .none)

theorem LocationProtocol_TriggeredReportRequest_constructs : Constructs "Hytera.LocationProtocol.TriggeredReportRequest" ⟨Hytera.LocationProtocol.TriggeredReportRequest, Hytera.LocationProtocol.TriggeredReportRequest.read, Hytera.LocationProtocol.TriggeredReportRequest.toPy⟩ :=
  constructs _ 4 (by decide) LocationProtocol_TriggeredReportRequest_class rfl (fun _ => ⟨_, _, rfl⟩) Hytera.LocationProtocol.TriggeredReportRequest.toPy_regular
    fun m H S k hk s _ => LocationProtocol_TriggeredReportRequest_builds m H S k hk s (.pv .none) (.pv .none)

theorem LocationProtocol_StandardAnswer_constructs : Constructs "Hytera.LocationProtocol.StandardAnswer" ⟨Hytera.LocationProtocol.StandardAnswer, Hytera.LocationProtocol.StandardAnswer.read, Hytera.LocationProtocol.StandardAnswer.toPy⟩ :=
  constructs _ 4 (by decide) LocationProtocol_StandardAnswer_class rfl (fun _ => ⟨_, _, rfl⟩) Hytera.LocationProtocol.StandardAnswer.toPy_regular
    fun m H S k hk s _ => LocationProtocol_StandardAnswer_builds m H S k hk s (.pv .none) (.pv .none)

theorem LocationProtocol_ConditionReportAnswer_constructs : Constructs "Hytera.LocationProtocol.ConditionReportAnswer" ⟨Hytera.LocationProtocol.ConditionReportAnswer, Hytera.LocationProtocol.ConditionReportAnswer.read, Hytera.LocationProtocol.ConditionReportAnswer.toPy⟩ :=
  constructs _ 4 (by decide) LocationProtocol_ConditionReportAnswer_class rfl (fun _ => ⟨_, _, rfl⟩) Hytera.LocationProtocol.ConditionReportAnswer.toPy_regular
    fun m H S k hk s _ => LocationProtocol_ConditionReportAnswer_builds m H S k hk s (.pv .none) (.pv .none)

theorem LocationProtocol_EmergencyReportStopRequest_constructs : Constructs "Hytera.LocationProtocol.EmergencyReportStopRequest" ⟨Hytera.LocationProtocol.EmergencyReportStopRequest, Hytera.LocationProtocol.EmergencyReportStopRequest.read, Hytera.LocationProtocol.EmergencyReportStopRequest.toPy⟩ :=
  constructs _ 4 (by decide) LocationProtocol_EmergencyReportStopRequest_class rfl (fun _ => ⟨_, _, rfl⟩) Hytera.LocationProtocol.EmergencyReportStopRequest.toPy_regular
    fun m H S k hk s _ => LocationProtocol_EmergencyReportStopRequest_builds m H S k hk s (.pv .none) (.pv .none)

theorem LocationProtocol_ConditionQuickGpsAnswer_constructs : Constructs "Hytera.LocationProtocol.ConditionQuickGpsAnswer" ⟨Hytera.LocationProtocol.ConditionQuickGpsAnswer, Hytera.LocationProtocol.ConditionQuickGpsAnswer.read, Hytera.LocationProtocol.ConditionQuickGpsAnswer.toPy⟩ :=
  constructs _ 4 (by decide) LocationProtocol_ConditionQuickGpsAnswer_class rfl (fun _ => ⟨_, _, rfl⟩) Hytera.LocationProtocol.ConditionQuickGpsAnswer.toPy_regular
    fun m H S k hk s _ => LocationProtocol_ConditionQuickGpsAnswer_builds m H S k hk s (.pv .none) (.pv .none)

theorem LocationProtocol_TriggeredReport_constructs : Constructs "Hytera.LocationProtocol.TriggeredReport" ⟨Hytera.LocationProtocol.TriggeredReport, Hytera.LocationProtocol.TriggeredReport.read, Hytera.LocationProtocol.TriggeredReport.toPy⟩ :=
  constructs _ 4 (by decide) LocationProtocol_TriggeredReport_class rfl (fun _ => ⟨_, _, rfl⟩) Hytera.LocationProtocol.TriggeredReport.toPy_regular
    fun m H S k hk s _ => LocationProtocol_TriggeredReport_builds m H S k hk s (.pv .none) (.pv .none)

theorem LocationProtocol_ConditionReportWithRssi_constructs : Constructs "Hytera.LocationProtocol.ConditionReportWithRssi" ⟨Hytera.LocationProtocol.ConditionReportWithRssi, Hytera.LocationProtocol.ConditionReportWithRssi.read, Hytera.LocationProtocol.ConditionReportWithRssi.toPy⟩ :=
  constructs _ 4 (by decide) LocationProtocol_ConditionReportWithRssi_class rfl (fun _ => ⟨_, _, rfl⟩) Hytera.LocationProtocol.ConditionReportWithRssi.toPy_regular
    fun m H S k hk s _ => LocationProtocol_ConditionReportWithRssi_builds m H S k hk s (.pv .none) (.pv .none)

theorem LocationProtocol_EmergencyReportStopAnswer_constructs : Constructs "Hytera.LocationProtocol.EmergencyReportStopAnswer" ⟨Hytera.LocationProtocol.EmergencyReportStopAnswer, Hytera.LocationProtocol.EmergencyReportStopAnswer.read, Hytera.LocationProtocol.EmergencyReportStopAnswer.toPy⟩ :=
  constructs _ 4 (by decide) LocationProtocol_EmergencyReportStopAnswer_class rfl (fun _ => ⟨_, _, rfl⟩) Hytera.LocationProtocol.EmergencyReportStopAnswer.toPy_regular
    fun m H S k hk s _ => LocationProtocol_EmergencyReportStopAnswer_builds m H S k hk s (.pv .none) (.pv .none)

theorem LocationProtocol_TriggeredReportStopRequest_constructs : Constructs "Hytera.LocationProtocol.TriggeredReportStopRequest" ⟨Hytera.LocationProtocol.TriggeredReportStopRequest, Hytera.LocationProtocol.TriggeredReportStopRequest.read, Hytera.LocationProtocol.TriggeredReportStopRequest.toPy⟩ :=
  constructs _ 4 (by decide) LocationProtocol_TriggeredReportStopRequest_class rfl (fun _ => ⟨_, _, rfl⟩) Hytera.LocationProtocol.TriggeredReportStopRequest.toPy_regular
    fun m H S k hk s _ => LocationProtocol_TriggeredReportStopRequest_builds m H S k hk s (.pv .none) (.pv .none)

theorem LocationProtocol_constructs : Constructs "Hytera.LocationProtocol" ⟨Hytera.LocationProtocol, Hytera.LocationProtocol.read, Hytera.LocationProtocol.toPy⟩ :=
  constructs _ 8 (by decide) LocationProtocol_class rfl (fun _ => ⟨_, _, rfl⟩) Hytera.LocationProtocol.toPy_regular
    fun m H S k hk s _ => LocationProtocol_builds m H S k hk s (.pv .none) (.pv .none)

end ConformHytera

theorem hyteraLocationProtocol_claims : Each Claim hyteraLocationProtocol :=
  ⟨ConformHytera.LocationProtocol_TriggeredReportStopAnswer_constructs, ConformHytera.LocationProtocol_ConditionReportRequest_constructs, ConformHytera.LocationProtocol_ConditionQuickGpsRequest_constructs, ConformHytera.LocationProtocol_ConditionReport_constructs, ConformHytera.LocationProtocol_EmergencyReport_constructs, ConformHytera.LocationProtocol_TriggeredReportAnswer_constructs, ConformHytera.LocationProtocol_StandardAnswerWithRssi_constructs, ConformHytera.LocationProtocol_QuickGpsPayload_constructs, ConformHytera.LocationProtocol_StandardRequest_constructs, ConformHytera.LocationProtocol_TriggeredReportRequest_constructs, ConformHytera.LocationProtocol_StandardAnswer_constructs, ConformHytera.LocationProtocol_ConditionReportAnswer_constructs, ConformHytera.LocationProtocol_EmergencyReportStopRequest_constructs, ConformHytera.LocationProtocol_ConditionQuickGpsAnswer_constructs, ConformHytera.LocationProtocol_TriggeredReport_constructs, ConformHytera.LocationProtocol_ConditionReportWithRssi_constructs, ConformHytera.LocationProtocol_EmergencyReportStopAnswer_constructs, ConformHytera.LocationProtocol_TriggeredReportStopRequest_constructs, ConformHytera.LocationProtocol_constructs, trivial⟩

namespace ConformHytera

theorem RadioControlProtocol_BroadcastStatusConfigurationReply_constructs : Constructs "Hytera.RadioControlProtocol.BroadcastStatusConfigurationReply" ⟨Hytera.RadioControlProtocol.BroadcastStatusConfigurationReply, Hytera.RadioControlProtocol.BroadcastStatusConfigurationReply.read, Hytera.RadioControlProtocol.BroadcastStatusConfigurationReply.toPy⟩ :=
  constructs _ 2 (by decide) RadioControlProtocol_BroadcastStatusConfigurationReply_class rfl (fun _ => ⟨_, _, rfl⟩) Hytera.RadioControlProtocol.BroadcastStatusConfigurationReply.toPy_regular
    fun m H S k hk s _ => RadioControlProtocol_BroadcastStatusConfigurationReply_builds m H S k hk s (.pv .none) (.pv .none)

theorem RadioControlProtocol_BroadcastConfiguration_constructs : Constructs "Hytera.RadioControlProtocol.BroadcastConfiguration" ⟨Hytera.RadioControlProtocol.BroadcastConfiguration, Hytera.RadioControlProtocol.BroadcastConfiguration.read, Hytera.RadioControlProtocol.BroadcastConfiguration.toPy⟩ :=
  constructs _ 2 (by decide) RadioControlProtocol_BroadcastConfiguration_class rfl (fun _ => ⟨_, _, rfl⟩) Hytera.RadioControlProtocol.BroadcastConfiguration.toPy_regular
    fun m H S k hk s _ => RadioControlProtocol_BroadcastConfiguration_builds m H S k hk s (.pv .none) (.pv .none)

theorem RadioControlProtocol_BroadcastStatusConfigurationRequest_constructs : Constructs "Hytera.RadioControlProtocol.BroadcastStatusConfigurationRequest" ⟨Hytera.RadioControlProtocol.BroadcastStatusConfigurationRequest, Hytera.RadioControlProtocol.BroadcastStatusConfigurationRequest.read, Hytera.RadioControlProtocol.BroadcastStatusConfigurationRequest.toPy⟩ :=
  constructs _ 4 (by decide) RadioControlProtocol_BroadcastStatusConfigurationRequest_class rfl (fun _ => ⟨_, _, rfl⟩) Hytera.RadioControlProtocol.BroadcastStatusConfigurationRequest.toPy_regular
    fun m H S k hk s _ => RadioControlProtocol_BroadcastStatusConfigurationRequest_builds m H S k hk s (.pv .none) (.pv .none)

theorem RadioControlProtocol_RadioIdentificationReply_alone : Unusable "Hytera.RadioControlProtocol.RadioIdentificationReply" := by
  refine unusable 2 (by decide) RadioControlProtocol_RadioIdentificationReply_class rfl fun m H S k hk s => ?_
  rw [construct_eq library _ "Hytera.RadioControlProtocol.RadioIdentificationReply" _ _ RadioControlProtocol_RadioIdentificationReply_class rfl rfl]
  py_run [onStream_set _ _ _ _ hk, hk, property_of _ _ _ _ RadioControlProtocol_RadioIdentificationReply_class, Source.Hytera.RadioControlProtocol.RadioIdentificationReply, Dmr.Hytera.RadioIp.read]
  repeat (first | (refine after_ends onlyEof_readU1 _ fun _ _ => ?_) | (refine after_ends onlyEof_readU2be _ fun _ _ => ?_))
  exact ⟨_, _, rfl, .inl rfl⟩

theorem RadioControlProtocol_GenericData_alone : Unusable "Hytera.RadioControlProtocol.GenericData" := by
  refine unusable 2 (by decide) RadioControlProtocol_GenericData_class rfl fun m H S k hk s => ?_
  rw [construct_eq library _ "Hytera.RadioControlProtocol.GenericData" _ _ RadioControlProtocol_GenericData_class rfl rfl]
  py_run [onStream_set _ _ _ _ hk, hk, property_of _ _ _ _ RadioControlProtocol_GenericData_class, Source.Hytera.RadioControlProtocol.GenericData, Dmr.Hytera.RadioIp.read]
  repeat (first | (refine after_ends onlyEof_readU1 _ fun _ _ => ?_) | (refine after_ends onlyEof_readU2be _ fun _ _ => ?_))
  exact ⟨_, _, rfl, .inl rfl⟩

theorem RadioControlProtocol_CallRequest_constructs : Constructs "Hytera.RadioControlProtocol.CallRequest" ⟨Hytera.RadioControlProtocol.CallRequest, Hytera.RadioControlProtocol.CallRequest.read, Hytera.RadioControlProtocol.CallRequest.toPy⟩ :=
  constructs _ 2 (by decide) RadioControlProtocol_CallRequest_class rfl (fun _ => ⟨_, _, rfl⟩) Hytera.RadioControlProtocol.CallRequest.toPy_regular
    fun m H S k hk s _ => RadioControlProtocol_CallRequest_builds m H S k hk s (.pv .none) (.pv .none)

theorem RadioControlProtocol_RemoveRadioReply_constructs : Constructs "Hytera.RadioControlProtocol.RemoveRadioReply" ⟨Hytera.RadioControlProtocol.RemoveRadioReply, Hytera.RadioControlProtocol.RemoveRadioReply.read, Hytera.RadioControlProtocol.RemoveRadioReply.toPy⟩ :=
  constructs _ 2 (by decide) RadioControlProtocol_RemoveRadioReply_class rfl (fun _ => ⟨_, _, rfl⟩) Hytera.RadioControlProtocol.RemoveRadioReply.toPy_regular
    fun m H S k hk s _ => RadioControlProtocol_RemoveRadioReply_builds m H S k hk s (.pv .none) (.pv .none)

theorem RadioControlProtocol_RemoveRadioRequest_constructs : Constructs "Hytera.RadioControlProtocol.RemoveRadioRequest" ⟨Hytera.RadioControlProtocol.RemoveRadioRequest, Hytera.RadioControlProtocol.RemoveRadioRequest.read, Hytera.RadioControlProtocol.RemoveRadioRequest.toPy⟩ :=
  constructs _ 2 (by decide) RadioControlProtocol_RemoveRadioRequest_class rfl (fun _ => ⟨_, _, rfl⟩) Hytera.RadioControlProtocol.RemoveRadioRequest.toPy_regular
    fun m H S k hk s _ => RadioControlProtocol_RemoveRadioRequest_builds m H S k hk s (.pv .none) (.pv .none)

theorem RadioControlProtocol_CallReply_constructs : Constructs "Hytera.RadioControlProtocol.CallReply" ⟨Hytera.RadioControlProtocol.CallReply, Hytera.RadioControlProtocol.CallReply.read, Hytera.RadioControlProtocol.CallReply.toPy⟩ :=
  constructs _ 2 (by decide) RadioControlProtocol_CallReply_class rfl (fun _ => ⟨_, _, rfl⟩) Hytera.RadioControlProtocol.CallReply.toPy_regular
    fun m H S k hk s _ => RadioControlProtocol_CallReply_builds m H S k hk s (.pv .none) (.pv .none)

theorem RadioControlProtocol_constructs : Constructs "Hytera.RadioControlProtocol" ⟨Hytera.RadioControlProtocol, Hytera.RadioControlProtocol.read, Hytera.RadioControlProtocol.toPy⟩ :=
  constructs _ 6 (by decide) RadioControlProtocol_class rfl (fun _ => ⟨_, _, rfl⟩) Hytera.RadioControlProtocol.toPy_regular
    fun m H S k hk s _ => RadioControlProtocol_builds m H S k hk s (.pv .none) (.pv .none)

end ConformHytera

theorem hyteraRadioControlProtocol_claims : Each Claim hyteraRadioControlProtocol :=
  ⟨ConformHytera.RadioControlProtocol_BroadcastStatusConfigurationReply_constructs, ConformHytera.RadioControlProtocol_BroadcastConfiguration_constructs, ConformHytera.RadioControlProtocol_BroadcastStatusConfigurationRequest_constructs, ConformHytera.RadioControlProtocol_RadioIdentificationReply_alone, ConformHytera.RadioControlProtocol_GenericData_alone, ConformHytera.RadioControlProtocol_CallRequest_constructs, ConformHytera.RadioControlProtocol_RemoveRadioReply_constructs, ConformHytera.RadioControlProtocol_RemoveRadioRequest_constructs, ConformHytera.RadioControlProtocol_CallReply_constructs, ConformHytera.RadioControlProtocol_constructs, trivial⟩

namespace ConformHytera

theorem RadioId_constructs : Constructs "Hytera.RadioId" ⟨Hytera.RadioId, Hytera.RadioId.read, Hytera.RadioId.toPy⟩ :=
  constructs _ 2 (by decide) RadioId_class rfl (fun _ => ⟨_, _, rfl⟩) Hytera.RadioId.toPy_regular
    fun m H S k hk s _ => RadioId_builds m H S k hk s (.pv .none) (.pv .none)

end ConformHytera

theorem hyteraRadioId_claims : Each Claim hyteraRadioId :=
  ⟨ConformHytera.RadioId_constructs, trivial⟩

namespace ConformHytera

theorem RadioIp_constructs : Constructs "Hytera.RadioIp" ⟨Hytera.RadioIp, Hytera.RadioIp.read, Hytera.RadioIp.toPy⟩ :=
  constructs _ 2 (by decide) RadioIp_class rfl (fun _ => ⟨_, _, rfl⟩) Hytera.RadioIp.toPy_regular
    fun m H S k hk s _ => RadioIp_builds m H S k hk s (.pv .none) (.pv .none)

end ConformHytera

theorem hyteraRadioIp_claims : Each Claim hyteraRadioIp :=
  ⟨ConformHytera.RadioIp_constructs, trivial⟩

namespace ConformHytera

theorem RadioRegistrationService_constructs : Constructs "Hytera.RadioRegistrationService" ⟨Hytera.RadioRegistrationService, Hytera.RadioRegistrationService.read, Hytera.RadioRegistrationService.toPy⟩ :=
  constructs _ 4 (by decide) RadioRegistrationService_class rfl (fun _ => ⟨_, _, rfl⟩) Hytera.RadioRegistrationService.toPy_regular
    fun m H S k hk s _ => RadioRegistrationService_builds m H S k hk s (.pv .none) (.pv .none)

end ConformHytera

theorem hyteraRadioRegistrationService_claims : Each Claim hyteraRadioRegistrationService :=
  ⟨ConformHytera.RadioRegistrationService_constructs, trivial⟩

namespace ConformHytera

theorem RealTimeTransportProtocol_FixedHeader_constructs : Constructs "Hytera.RealTimeTransportProtocol.FixedHeader" ⟨Hytera.RealTimeTransportProtocol.FixedHeader, Hytera.RealTimeTransportProtocol.FixedHeader.read, Hytera.RealTimeTransportProtocol.FixedHeader.toPy⟩ :=
  constructs _ 2 (by decide) RealTimeTransportProtocol_FixedHeader_class rfl (fun _ => ⟨_, _, rfl⟩) Hytera.RealTimeTransportProtocol.FixedHeader.toPy_regular
    fun m H S k hk s _ => RealTimeTransportProtocol_FixedHeader_builds m H S k hk s (.pv .none) (.pv .none)

theorem RealTimeTransportProtocol_HeaderExtension_constructs : Constructs "Hytera.RealTimeTransportProtocol.HeaderExtension" ⟨Hytera.RealTimeTransportProtocol.HeaderExtension, Hytera.RealTimeTransportProtocol.HeaderExtension.read, Hytera.RealTimeTransportProtocol.HeaderExtension.toPy⟩ :=
  constructs _ 4 (by decide) RealTimeTransportProtocol_HeaderExtension_class rfl (fun _ => ⟨_, _, rfl⟩) Hytera.RealTimeTransportProtocol.HeaderExtension.toPy_regular
    fun m H S k hk s _ => RealTimeTransportProtocol_HeaderExtension_builds m H S k hk s (.pv .none) (.pv .none)

theorem RealTimeTransportProtocol_constructs : Constructs "Hytera.RealTimeTransportProtocol" ⟨Hytera.RealTimeTransportProtocol, Hytera.RealTimeTransportProtocol.read, Hytera.RealTimeTransportProtocol.toPy⟩ :=
  constructs _ 6 (by decide) RealTimeTransportProtocol_class rfl (fun _ => ⟨_, _, rfl⟩) Hytera.RealTimeTransportProtocol.toPy_regular
    fun m H S k hk s _ => RealTimeTransportProtocol_builds m H S k hk s (.pv .none) (.pv .none)

end ConformHytera

theorem hyteraRealTimeTransportProtocol_claims : Each Claim hyteraRealTimeTransportProtocol :=
  ⟨ConformHytera.RealTimeTransportProtocol_FixedHeader_constructs, ConformHytera.RealTimeTransportProtocol_HeaderExtension_constructs, ConformHytera.RealTimeTransportProtocol_constructs, trivial⟩

namespace ConformHytera

theorem TelemetryProtocol_StandardStatusReport_constructs : Constructs "Hytera.TelemetryProtocol.StandardStatusReport" ⟨Hytera.TelemetryProtocol.StandardStatusReport, Hytera.TelemetryProtocol.StandardStatusReport.read, Hytera.TelemetryProtocol.StandardStatusReport.toPy⟩ :=
  constructs _ 4 (by decide) TelemetryProtocol_StandardStatusReport_class rfl (fun _ => ⟨_, _, rfl⟩) Hytera.TelemetryProtocol.StandardStatusReport.toPy_regular
    fun m H S k hk s _ => TelemetryProtocol_StandardStatusReport_builds m H S k hk s (.pv .none) (.pv .none)

theorem TelemetryProtocol_VioExtendedStatus_constructs : Constructs "Hytera.TelemetryProtocol.VioExtendedStatus" ⟨Hytera.TelemetryProtocol.VioExtendedStatus, Hytera.TelemetryProtocol.VioExtendedStatus.read, Hytera.TelemetryProtocol.VioExtendedStatus.toPy⟩ :=
  constructs _ 2 (by decide) TelemetryProtocol_VioExtendedStatus_class rfl (fun _ => ⟨_, _, rfl⟩) Hytera.TelemetryProtocol.VioExtendedStatus.toPy_regular
    fun m H S k hk s _ => TelemetryProtocol_VioExtendedStatus_builds m H S k hk s (.pv .none) (.pv .none)

theorem TelemetryProtocol_RemoteControlAnswer_constructs : Constructs "Hytera.TelemetryProtocol.RemoteControlAnswer" ⟨Hytera.TelemetryProtocol.RemoteControlAnswer, Hytera.TelemetryProtocol.RemoteControlAnswer.read, Hytera.TelemetryProtocol.RemoteControlAnswer.toPy⟩ :=
  constructs _ 4 (by decide) TelemetryProtocol_RemoteControlAnswer_class rfl (fun _ => ⟨_, _, rfl⟩) Hytera.TelemetryProtocol.RemoteControlAnswer.toPy_regular
    fun m H S k hk s _ => TelemetryProtocol_RemoteControlAnswer_builds m H S k hk s (.pv .none) (.pv .none)

theorem TelemetryProtocol_RemoteControlRequest_constructs : Constructs "Hytera.TelemetryProtocol.RemoteControlRequest" ⟨Hytera.TelemetryProtocol.RemoteControlRequest, Hytera.TelemetryProtocol.RemoteControlRequest.read, Hytera.TelemetryProtocol.RemoteControlRequest.toPy⟩ :=
  constructs _ 4 (by decide) TelemetryProtocol_RemoteControlRequest_class rfl (fun _ => ⟨_, _, rfl⟩) Hytera.TelemetryProtocol.RemoteControlRequest.toPy_regular
    fun m H S k hk s _ => TelemetryProtocol_RemoteControlRequest_builds m H S k hk s (.pv .none) (.pv .none)

theorem TelemetryProtocol_ExtendedStatusReport_constructs : Constructs "Hytera.TelemetryProtocol.ExtendedStatusReport" ⟨Hytera.TelemetryProtocol.ExtendedStatusReport, Hytera.TelemetryProtocol.ExtendedStatusReport.read, Hytera.TelemetryProtocol.ExtendedStatusReport.toPy⟩ :=
  constructs _ 4 (by decide) TelemetryProtocol_ExtendedStatusReport_class rfl (fun _ => ⟨_, _, rfl⟩) Hytera.TelemetryProtocol.ExtendedStatusReport.toPy_regular
    fun m H S k hk s _ => TelemetryProtocol_ExtendedStatusReport_builds m H S k hk s (.pv .none) (.pv .none)

theorem TelemetryProtocol_StandardStatusRequest_constructs : Constructs "Hytera.TelemetryProtocol.StandardStatusRequest" ⟨Hytera.TelemetryProtocol.StandardStatusRequest, Hytera.TelemetryProtocol.StandardStatusRequest.read, Hytera.TelemetryProtocol.StandardStatusRequest.toPy⟩ :=
  constructs _ 4 (by decide) TelemetryProtocol_StandardStatusRequest_class rfl (fun _ => ⟨_, _, rfl⟩) Hytera.TelemetryProtocol.StandardStatusRequest.toPy_regular
    fun m H S k hk s _ => TelemetryProtocol_StandardStatusRequest_builds m H S k hk s (.pv .none) (.pv .none)

theorem TelemetryProtocol_constructs : Constructs "Hytera.TelemetryProtocol" ⟨Hytera.TelemetryProtocol, Hytera.TelemetryProtocol.read, Hytera.TelemetryProtocol.toPy⟩ :=
  constructs _ 6 (by decide) TelemetryProtocol_class rfl (fun _ => ⟨_, _, rfl⟩) Hytera.TelemetryProtocol.toPy_regular
    fun m H S k hk s _ => TelemetryProtocol_builds m H S k hk s (.pv .none) (.pv .none)

end ConformHytera

theorem hyteraTelemetryProtocol_claims : Each Claim hyteraTelemetryProtocol :=
  ⟨ConformHytera.TelemetryProtocol_StandardStatusReport_constructs, ConformHytera.TelemetryProtocol_VioExtendedStatus_constructs, ConformHytera.TelemetryProtocol_RemoteControlAnswer_constructs, ConformHytera.TelemetryProtocol_RemoteControlRequest_constructs, ConformHytera.TelemetryProtocol_ExtendedStatusReport_constructs, ConformHytera.TelemetryProtocol_StandardStatusRequest_constructs, ConformHytera.TelemetryProtocol_constructs, trivial⟩

namespace ConformHytera

theorem TextMessageProtocol_constructs : Constructs "Hytera.TextMessageProtocol" ⟨Hytera.TextMessageProtocol, Hytera.TextMessageProtocol.read, Hytera.TextMessageProtocol.toPy⟩ :=
  constructs _ 4 (by decide) TextMessageProtocol_class rfl (fun _ => ⟨_, _, rfl⟩) Hytera.TextMessageProtocol.toPy_regular
    fun m H S k hk s _ => TextMessageProtocol_builds m H S k hk s (.pv .none) (.pv .none)

end ConformHytera

theorem hyteraTextMessageProtocol_claims : Each Claim hyteraTextMessageProtocol :=
  ⟨ConformHytera.TextMessageProtocol_constructs, trivial⟩

namespace ConformEtsi

theorem DmrCsbk_NegativeAckResponseData_constructs : Constructs "Etsi.DmrCsbk.NegativeAckResponseData" ⟨Etsi.DmrCsbk.NegativeAckResponseData, Etsi.DmrCsbk.NegativeAckResponseData.read, Etsi.DmrCsbk.NegativeAckResponseData.toPy⟩ :=
  constructs _ 2 (by decide) DmrCsbk_NegativeAckResponseData_class rfl (fun _ => ⟨_, _, rfl⟩) Etsi.DmrCsbk.NegativeAckResponseData.toPy_regular
    fun m H S k hk s _ => DmrCsbk_NegativeAckResponseData_builds m H S k hk s (.pv .none) (.pv .none)

theorem DmrCsbk_UnitToUnitVoiceRequestData_constructs : Constructs "Etsi.DmrCsbk.UnitToUnitVoiceRequestData" ⟨Etsi.DmrCsbk.UnitToUnitVoiceRequestData, Etsi.DmrCsbk.UnitToUnitVoiceRequestData.read, Etsi.DmrCsbk.UnitToUnitVoiceRequestData.toPy⟩ :=
  constructs _ 4 (by decide) DmrCsbk_UnitToUnitVoiceRequestData_class rfl (fun _ => ⟨_, _, rfl⟩) Etsi.DmrCsbk.UnitToUnitVoiceRequestData.toPy_regular
    fun m H S k hk s _ => DmrCsbk_UnitToUnitVoiceRequestData_builds m H S k hk s (.pv .none) (.pv .none)

theorem DmrCsbk_ServiceOptions_constructs : Constructs "Etsi.DmrCsbk.ServiceOptions" ⟨Etsi.DmrCsbk.ServiceOptions, Etsi.DmrCsbk.ServiceOptions.read, Etsi.DmrCsbk.ServiceOptions.toPy⟩ :=
  constructs _ 2 (by decide) DmrCsbk_ServiceOptions_class rfl (fun _ => ⟨_, _, rfl⟩) Etsi.DmrCsbk.ServiceOptions.toPy_regular
    fun m H S k hk s _ => DmrCsbk_ServiceOptions_builds m H S k hk s (.pv .none) (.pv .none)

theorem DmrCsbk_PreambleData_constructs : Constructs "Etsi.DmrCsbk.PreambleData" ⟨Etsi.DmrCsbk.PreambleData, Etsi.DmrCsbk.PreambleData.read, Etsi.DmrCsbk.PreambleData.toPy⟩ :=
  constructs _ 2 (by decide) DmrCsbk_PreambleData_class rfl (fun _ => ⟨_, _, rfl⟩) Etsi.DmrCsbk.PreambleData.toPy_regular
    fun m H S k hk s _ => DmrCsbk_PreambleData_builds m H S k hk s (.pv .none) (.pv .none)

theorem DmrCsbk_ChannelTimingData_constructs : Constructs "Etsi.DmrCsbk.ChannelTimingData" ⟨Etsi.DmrCsbk.ChannelTimingData, Etsi.DmrCsbk.ChannelTimingData.read, Etsi.DmrCsbk.ChannelTimingData.toPy⟩ :=
  constructs _ 2 (by decide) DmrCsbk_ChannelTimingData_class rfl (fun _ => ⟨_, _, rfl⟩) Etsi.DmrCsbk.ChannelTimingData.toPy_regular
    fun m H S k hk s _ => DmrCsbk_ChannelTimingData_builds m H S k hk s (.pv .none) (.pv .none)

theorem DmrCsbk_BsOutboundActivationData_constructs : Constructs "Etsi.DmrCsbk.BsOutboundActivationData" ⟨Etsi.DmrCsbk.BsOutboundActivationData, Etsi.DmrCsbk.BsOutboundActivationData.read, Etsi.DmrCsbk.BsOutboundActivationData.toPy⟩ :=
  constructs _ 2 (by decide) DmrCsbk_BsOutboundActivationData_class rfl (fun _ => ⟨_, _, rfl⟩) Etsi.DmrCsbk.BsOutboundActivationData.toPy_regular
    fun m H S k hk s _ => DmrCsbk_BsOutboundActivationData_builds m H S k hk s (.pv .none) (.pv .none)

theorem DmrCsbk_UnitToUnitVoiceAnswerData_constructs : Constructs "Etsi.DmrCsbk.UnitToUnitVoiceAnswerData" ⟨Etsi.DmrCsbk.UnitToUnitVoiceAnswerData, Etsi.DmrCsbk.UnitToUnitVoiceAnswerData.read, Etsi.DmrCsbk.UnitToUnitVoiceAnswerData.toPy⟩ :=
  constructs _ 4 (by decide) DmrCsbk_UnitToUnitVoiceAnswerData_class rfl (fun _ => ⟨_, _, rfl⟩) Etsi.DmrCsbk.UnitToUnitVoiceAnswerData.toPy_regular
    fun m H S k hk s _ => DmrCsbk_UnitToUnitVoiceAnswerData_builds m H S k hk s (.pv .none) (.pv .none)

theorem DmrCsbk_constructs : Constructs "Etsi.DmrCsbk" ⟨Etsi.DmrCsbk, Etsi.DmrCsbk.read, Etsi.DmrCsbk.toPy⟩ :=
  constructs _ 6 (by decide) DmrCsbk_class rfl (fun _ => ⟨_, _, rfl⟩) Etsi.DmrCsbk.toPy_regular
    fun m H S k hk s _ => DmrCsbk_builds m H S k hk s (.pv .none) (.pv .none)

end ConformEtsi

theorem etsiDmrCsbk_claims : Each Claim etsiDmrCsbk :=
  ⟨ConformEtsi.DmrCsbk_NegativeAckResponseData_constructs, ConformEtsi.DmrCsbk_UnitToUnitVoiceRequestData_constructs, ConformEtsi.DmrCsbk_ServiceOptions_constructs, ConformEtsi.DmrCsbk_PreambleData_constructs, ConformEtsi.DmrCsbk_ChannelTimingData_constructs, ConformEtsi.DmrCsbk_BsOutboundActivationData_constructs, ConformEtsi.DmrCsbk_UnitToUnitVoiceAnswerData_constructs, ConformEtsi.DmrCsbk_constructs, trivial⟩

namespace ConformEtsi

theorem DmrData_Rate1LastBlockUnconfirmed_constructs : Constructs "Etsi.DmrData.Rate1LastBlockUnconfirmed" ⟨Etsi.DmrData.Rate1LastBlockUnconfirmed, Etsi.DmrData.Rate1LastBlockUnconfirmed.read, Etsi.DmrData.Rate1LastBlockUnconfirmed.toPy⟩ :=
  constructs _ 2 (by decide) DmrData_Rate1LastBlockUnconfirmed_class rfl (fun _ => ⟨_, _, rfl⟩) Etsi.DmrData.Rate1LastBlockUnconfirmed.toPy_regular
    fun m H S k hk s _ => DmrData_Rate1LastBlockUnconfirmed_builds m H S k hk s (.pv .none) (.pv .none)

theorem DmrData_Rate12LastBlockConfirmed_constructs : Constructs "Etsi.DmrData.Rate12LastBlockConfirmed" ⟨Etsi.DmrData.Rate12LastBlockConfirmed, Etsi.DmrData.Rate12LastBlockConfirmed.read, Etsi.DmrData.Rate12LastBlockConfirmed.toPy⟩ :=
  constructs _ 2 (by decide) DmrData_Rate12LastBlockConfirmed_class rfl (fun _ => ⟨_, _, rfl⟩) Etsi.DmrData.Rate12LastBlockConfirmed.toPy_regular
    fun m H S k hk s _ => DmrData_Rate12LastBlockConfirmed_builds m H S k hk s (.pv .none) (.pv .none)

theorem DmrData_Rate12Confirmed_constructs : Constructs "Etsi.DmrData.Rate12Confirmed" ⟨Etsi.DmrData.Rate12Confirmed, Etsi.DmrData.Rate12Confirmed.read, Etsi.DmrData.Rate12Confirmed.toPy⟩ :=
  constructs _ 2 (by decide) DmrData_Rate12Confirmed_class rfl (fun _ => ⟨_, _, rfl⟩) Etsi.DmrData.Rate12Confirmed.toPy_regular
    fun m H S k hk s _ => DmrData_Rate12Confirmed_builds m H S k hk s (.pv .none) (.pv .none)

theorem DmrData_Rate34LastBlockUnconfirmed_constructs : Constructs "Etsi.DmrData.Rate34LastBlockUnconfirmed" ⟨Etsi.DmrData.Rate34LastBlockUnconfirmed, Etsi.DmrData.Rate34LastBlockUnconfirmed.read, Etsi.DmrData.Rate34LastBlockUnconfirmed.toPy⟩ :=
  constructs _ 2 (by decide) DmrData_Rate34LastBlockUnconfirmed_class rfl (fun _ => ⟨_, _, rfl⟩) Etsi.DmrData.Rate34LastBlockUnconfirmed.toPy_regular
    fun m H S k hk s _ => DmrData_Rate34LastBlockUnconfirmed_builds m H S k hk s (.pv .none) (.pv .none)

theorem DmrData_Rate1LastBlockConfirmed_constructs : Constructs "Etsi.DmrData.Rate1LastBlockConfirmed" ⟨Etsi.DmrData.Rate1LastBlockConfirmed, Etsi.DmrData.Rate1LastBlockConfirmed.read, Etsi.DmrData.Rate1LastBlockConfirmed.toPy⟩ :=
  constructs _ 2 (by decide) DmrData_Rate1LastBlockConfirmed_class rfl (fun _ => ⟨_, _, rfl⟩) Etsi.DmrData.Rate1LastBlockConfirmed.toPy_regular
    fun m H S k hk s _ => DmrData_Rate1LastBlockConfirmed_builds m H S k hk s (.pv .none) (.pv .none)

theorem DmrData_Rate1Unconfirmed_constructs : Constructs "Etsi.DmrData.Rate1Unconfirmed" ⟨Etsi.DmrData.Rate1Unconfirmed, Etsi.DmrData.Rate1Unconfirmed.read, Etsi.DmrData.Rate1Unconfirmed.toPy⟩ :=
  constructs _ 2 (by decide) DmrData_Rate1Unconfirmed_class rfl (fun _ => ⟨_, _, rfl⟩) Etsi.DmrData.Rate1Unconfirmed.toPy_regular
    fun m H S k hk s _ => DmrData_Rate1Unconfirmed_builds m H S k hk s (.pv .none) (.pv .none)

theorem DmrData_UdtLastBlock_constructs : Constructs "Etsi.DmrData.UdtLastBlock" ⟨Etsi.DmrData.UdtLastBlock, Etsi.DmrData.UdtLastBlock.read, Etsi.DmrData.UdtLastBlock.toPy⟩ :=
  constructs _ 2 (by decide) DmrData_UdtLastBlock_class rfl (fun _ => ⟨_, _, rfl⟩) Etsi.DmrData.UdtLastBlock.toPy_regular
    fun m H S k hk s _ => DmrData_UdtLastBlock_builds m H S k hk s (.pv .none) (.pv .none)

theorem DmrData_Rate34Confirmed_constructs : Constructs "Etsi.DmrData.Rate34Confirmed" ⟨Etsi.DmrData.Rate34Confirmed, Etsi.DmrData.Rate34Confirmed.read, Etsi.DmrData.Rate34Confirmed.toPy⟩ :=
  constructs _ 2 (by decide) DmrData_Rate34Confirmed_class rfl (fun _ => ⟨_, _, rfl⟩) Etsi.DmrData.Rate34Confirmed.toPy_regular
    fun m H S k hk s _ => DmrData_Rate34Confirmed_builds m H S k hk s (.pv .none) (.pv .none)

theorem DmrData_Rate34LastBlockConfirmed_constructs : Constructs "Etsi.DmrData.Rate34LastBlockConfirmed" ⟨Etsi.DmrData.Rate34LastBlockConfirmed, Etsi.DmrData.Rate34LastBlockConfirmed.read, Etsi.DmrData.Rate34LastBlockConfirmed.toPy⟩ :=
  constructs _ 2 (by decide) DmrData_Rate34LastBlockConfirmed_class rfl (fun _ => ⟨_, _, rfl⟩) Etsi.DmrData.Rate34LastBlockConfirmed.toPy_regular
    fun m H S k hk s _ => DmrData_Rate34LastBlockConfirmed_builds m H S k hk s (.pv .none) (.pv .none)

theorem DmrData_Rate34Unconfirmed_constructs : Constructs "Etsi.DmrData.Rate34Unconfirmed" ⟨Etsi.DmrData.Rate34Unconfirmed, Etsi.DmrData.Rate34Unconfirmed.read, Etsi.DmrData.Rate34Unconfirmed.toPy⟩ :=
  constructs _ 2 (by decide) DmrData_Rate34Unconfirmed_class rfl (fun _ => ⟨_, _, rfl⟩) Etsi.DmrData.Rate34Unconfirmed.toPy_regular
    fun m H S k hk s _ => DmrData_Rate34Unconfirmed_builds m H S k hk s (.pv .none) (.pv .none)

theorem DmrData_Rate12LastBlockUnconfirmed_constructs : Constructs "Etsi.DmrData.Rate12LastBlockUnconfirmed" ⟨Etsi.DmrData.Rate12LastBlockUnconfirmed, Etsi.DmrData.Rate12LastBlockUnconfirmed.read, Etsi.DmrData.Rate12LastBlockUnconfirmed.toPy⟩ :=
  constructs _ 2 (by decide) DmrData_Rate12LastBlockUnconfirmed_class rfl (fun _ => ⟨_, _, rfl⟩) Etsi.DmrData.Rate12LastBlockUnconfirmed.toPy_regular
    fun m H S k hk s _ => DmrData_Rate12LastBlockUnconfirmed_builds m H S k hk s (.pv .none) (.pv .none)

theorem DmrData_Rate1Confirmed_constructs : Constructs "Etsi.DmrData.Rate1Confirmed" ⟨Etsi.DmrData.Rate1Confirmed, Etsi.DmrData.Rate1Confirmed.read, Etsi.DmrData.Rate1Confirmed.toPy⟩ :=
  constructs _ 2 (by decide) DmrData_Rate1Confirmed_class rfl (fun _ => ⟨_, _, rfl⟩) Etsi.DmrData.Rate1Confirmed.toPy_regular
    fun m H S k hk s _ => DmrData_Rate1Confirmed_builds m H S k hk s (.pv .none) (.pv .none)

theorem DmrData_Rate12Unconfirmed_constructs : Constructs "Etsi.DmrData.Rate12Unconfirmed" ⟨Etsi.DmrData.Rate12Unconfirmed, Etsi.DmrData.Rate12Unconfirmed.read, Etsi.DmrData.Rate12Unconfirmed.toPy⟩ :=
  constructs _ 2 (by decide) DmrData_Rate12Unconfirmed_class rfl (fun _ => ⟨_, _, rfl⟩) Etsi.DmrData.Rate12Unconfirmed.toPy_regular
    fun m H S k hk s _ => DmrData_Rate12Unconfirmed_builds m H S k hk s (.pv .none) (.pv .none)

theorem DmrData_constructs : Constructs "Etsi.DmrData" ⟨Etsi.DmrData, Etsi.DmrData.read, Etsi.DmrData.toPy⟩ :=
  constructs _ 2 (by decide) DmrData_class rfl (fun _ => ⟨_, _, rfl⟩) Etsi.DmrData.toPy_regular
    fun m H S k hk s _ => DmrData_builds m H S k hk s (.pv .none) (.pv .none)

end ConformEtsi

theorem etsiDmrData_claims : Each Claim etsiDmrData :=
  ⟨ConformEtsi.DmrData_Rate1LastBlockUnconfirmed_constructs, ConformEtsi.DmrData_Rate12LastBlockConfirmed_constructs, ConformEtsi.DmrData_Rate12Confirmed_constructs, ConformEtsi.DmrData_Rate34LastBlockUnconfirmed_constructs, ConformEtsi.DmrData_Rate1LastBlockConfirmed_constructs, ConformEtsi.DmrData_Rate1Unconfirmed_constructs, ConformEtsi.DmrData_UdtLastBlock_constructs, ConformEtsi.DmrData_Rate34Confirmed_constructs, ConformEtsi.DmrData_Rate34LastBlockConfirmed_constructs, ConformEtsi.DmrData_Rate34Unconfirmed_constructs, ConformEtsi.DmrData_Rate12LastBlockUnconfirmed_constructs, ConformEtsi.DmrData_Rate1Confirmed_constructs, ConformEtsi.DmrData_Rate12Unconfirmed_constructs, ConformEtsi.DmrData_constructs, trivial⟩

namespace ConformEtsi

theorem DmrDataHeader_DataHeaderShortRaw_constructs : Constructs "Etsi.DmrDataHeader.DataHeaderShortRaw" ⟨Etsi.DmrDataHeader.DataHeaderShortRaw, Etsi.DmrDataHeader.DataHeaderShortRaw.read, Etsi.DmrDataHeader.DataHeaderShortRaw.toPy⟩ :=
  constructs _ 2 (by decide) DmrDataHeader_DataHeaderShortRaw_class rfl (fun _ => ⟨_, _, rfl⟩) Etsi.DmrDataHeader.DataHeaderShortRaw.toPy_regular
    fun m H S k hk s _ => DmrDataHeader_DataHeaderShortRaw_builds m H S k hk s (.pv .none) (.pv .none)

theorem DmrDataHeader_DataHeaderProprietary_constructs : Constructs "Etsi.DmrDataHeader.DataHeaderProprietary" ⟨Etsi.DmrDataHeader.DataHeaderProprietary, Etsi.DmrDataHeader.DataHeaderProprietary.read, Etsi.DmrDataHeader.DataHeaderProprietary.toPy⟩ :=
  constructs _ 2 (by decide) DmrDataHeader_DataHeaderProprietary_class rfl (fun _ => ⟨_, _, rfl⟩) Etsi.DmrDataHeader.DataHeaderProprietary.toPy_regular
    fun m H S k hk s _ => DmrDataHeader_DataHeaderProprietary_builds m H S k hk s (.pv .none) (.pv .none)

theorem DmrDataHeader_DataHeaderUndefined_constructs : Constructs "Etsi.DmrDataHeader.DataHeaderUndefined" ⟨Etsi.DmrDataHeader.DataHeaderUndefined, Etsi.DmrDataHeader.DataHeaderUndefined.read, Etsi.DmrDataHeader.DataHeaderUndefined.toPy⟩ :=
  constructs _ 2 (by decide) DmrDataHeader_DataHeaderUndefined_class rfl (fun _ => ⟨_, _, rfl⟩) Etsi.DmrDataHeader.DataHeaderUndefined.toPy_regular
    fun m H S k hk s _ => DmrDataHeader_DataHeaderUndefined_builds m H S k hk s (.pv .none) (.pv .none)

theorem DmrDataHeader_DataHeaderShortStatusPrecoded_constructs : Constructs "Etsi.DmrDataHeader.DataHeaderShortStatusPrecoded" ⟨Etsi.DmrDataHeader.DataHeaderShortStatusPrecoded, Etsi.DmrDataHeader.DataHeaderShortStatusPrecoded.read, Etsi.DmrDataHeader.DataHeaderShortStatusPrecoded.toPy⟩ :=
  constructs _ 2 (by decide) DmrDataHeader_DataHeaderShortStatusPrecoded_class rfl (fun _ => ⟨_, _, rfl⟩) Etsi.DmrDataHeader.DataHeaderShortStatusPrecoded.toPy_regular
    fun m H S k hk s _ => DmrDataHeader_DataHeaderShortStatusPrecoded_builds m H S k hk s (.pv .none) (.pv .none)

theorem DmrDataHeader_DataHeaderResponse_constructs : Constructs "Etsi.DmrDataHeader.DataHeaderResponse" ⟨Etsi.DmrDataHeader.DataHeaderResponse, Etsi.DmrDataHeader.DataHeaderResponse.read, Etsi.DmrDataHeader.DataHeaderResponse.toPy⟩ :=
  constructs _ 2 (by decide) DmrDataHeader_DataHeaderResponse_class rfl (fun _ => ⟨_, _, rfl⟩) Etsi.DmrDataHeader.DataHeaderResponse.toPy_regular
    fun m H S k hk s _ => DmrDataHeader_DataHeaderResponse_builds m H S k hk s (.pv .none) (.pv .none)

theorem DmrDataHeader_DataHeaderConfirmed_constructs : Constructs "Etsi.DmrDataHeader.DataHeaderConfirmed" ⟨Etsi.DmrDataHeader.DataHeaderConfirmed, Etsi.DmrDataHeader.DataHeaderConfirmed.read, Etsi.DmrDataHeader.DataHeaderConfirmed.toPy⟩ :=
  constructs _ 2 (by decide) DmrDataHeader_DataHeaderConfirmed_class rfl (fun _ => ⟨_, _, rfl⟩) Etsi.DmrDataHeader.DataHeaderConfirmed.toPy_regular
    fun m H S k hk s _ => DmrDataHeader_DataHeaderConfirmed_builds m H S k hk s (.pv .none) (.pv .none)

theorem DmrDataHeader_DataHeaderUnconfirmed_constructs : Constructs "Etsi.DmrDataHeader.DataHeaderUnconfirmed" ⟨Etsi.DmrDataHeader.DataHeaderUnconfirmed, Etsi.DmrDataHeader.DataHeaderUnconfirmed.read, Etsi.DmrDataHeader.DataHeaderUnconfirmed.toPy⟩ :=
  constructs _ 2 (by decide) DmrDataHeader_DataHeaderUnconfirmed_class rfl (fun _ => ⟨_, _, rfl⟩) Etsi.DmrDataHeader.DataHeaderUnconfirmed.toPy_regular
    fun m H S k hk s _ => DmrDataHeader_DataHeaderUnconfirmed_builds m H S k hk s (.pv .none) (.pv .none)

theorem DmrDataHeader_DataHeaderShortDefined_constructs : Constructs "Etsi.DmrDataHeader.DataHeaderShortDefined" ⟨Etsi.DmrDataHeader.DataHeaderShortDefined, Etsi.DmrDataHeader.DataHeaderShortDefined.read, Etsi.DmrDataHeader.DataHeaderShortDefined.toPy⟩ :=
  constructs _ 2 (by decide) DmrDataHeader_DataHeaderShortDefined_class rfl (fun _ => ⟨_, _, rfl⟩) Etsi.DmrDataHeader.DataHeaderShortDefined.toPy_regular
    fun m H S k hk s _ => DmrDataHeader_DataHeaderShortDefined_builds m H S k hk s (.pv .none) (.pv .none)

theorem DmrDataHeader_DataHeaderUdt_constructs : Constructs "Etsi.DmrDataHeader.DataHeaderUdt" ⟨Etsi.DmrDataHeader.DataHeaderUdt, Etsi.DmrDataHeader.DataHeaderUdt.read, Etsi.DmrDataHeader.DataHeaderUdt.toPy⟩ :=
  constructs _ 2 (by decide) DmrDataHeader_DataHeaderUdt_class rfl (fun _ => ⟨_, _, rfl⟩) Etsi.DmrDataHeader.DataHeaderUdt.toPy_regular
    fun m H S k hk s _ => DmrDataHeader_DataHeaderUdt_builds m H S k hk s (.pv .none) (.pv .none)

theorem DmrDataHeader_constructs : Constructs "Etsi.DmrDataHeader" ⟨Etsi.DmrDataHeader, Etsi.DmrDataHeader.read, Etsi.DmrDataHeader.toPy⟩ :=
  constructs _ 2 (by decide) DmrDataHeader_class rfl (fun _ => ⟨_, _, rfl⟩) Etsi.DmrDataHeader.toPy_regular
    fun m H S k hk s _ => DmrDataHeader_builds m H S k hk s (.pv .none) (.pv .none)

end ConformEtsi

theorem etsiDmrDataHeader_claims : Each Claim etsiDmrDataHeader :=
  ⟨ConformEtsi.DmrDataHeader_DataHeaderShortRaw_constructs, ConformEtsi.DmrDataHeader_DataHeaderProprietary_constructs, ConformEtsi.DmrDataHeader_DataHeaderUndefined_constructs, ConformEtsi.DmrDataHeader_DataHeaderShortStatusPrecoded_constructs, ConformEtsi.DmrDataHeader_DataHeaderResponse_constructs, ConformEtsi.DmrDataHeader_DataHeaderConfirmed_constructs, ConformEtsi.DmrDataHeader_DataHeaderUnconfirmed_constructs, ConformEtsi.DmrDataHeader_DataHeaderShortDefined_constructs, ConformEtsi.DmrDataHeader_DataHeaderUdt_constructs, ConformEtsi.DmrDataHeader_constructs, trivial⟩

namespace ConformEtsi

theorem DmrIpUdp_UdpIpv4CompressedHeader_constructs : Constructs "Etsi.DmrIpUdp.UdpIpv4CompressedHeader" ⟨Etsi.DmrIpUdp.UdpIpv4CompressedHeader, Etsi.DmrIpUdp.UdpIpv4CompressedHeader.read, Etsi.DmrIpUdp.UdpIpv4CompressedHeader.toPy⟩ :=
  constructs _ 2 (by decide) DmrIpUdp_UdpIpv4CompressedHeader_class rfl (fun _ => ⟨_, _, rfl⟩) Etsi.DmrIpUdp.UdpIpv4CompressedHeader.toPy_regular
    fun m H S k hk s _ => DmrIpUdp_UdpIpv4CompressedHeader_builds m H S k hk s (.pv .none) (.pv .none)

theorem DmrIpUdp_constructs : Constructs "Etsi.DmrIpUdp" ⟨Etsi.DmrIpUdp, Etsi.DmrIpUdp.read, Etsi.DmrIpUdp.toPy⟩ :=
  constructs _ 2 (by decide) DmrIpUdp_class rfl (fun _ => ⟨_, _, rfl⟩) Etsi.DmrIpUdp.toPy_regular
    fun m H S k hk s _ => DmrIpUdp_builds m H S k hk s (.pv .none) (.pv .none)

end ConformEtsi

theorem etsiDmrIpUdp_claims : Each Claim etsiDmrIpUdp :=
  ⟨ConformEtsi.DmrIpUdp_UdpIpv4CompressedHeader_constructs, ConformEtsi.DmrIpUdp_constructs, trivial⟩

namespace ConformEtsi

theorem FullLinkControl_GpsInfoLcPdu_constructs : Constructs "Etsi.FullLinkControl.GpsInfoLcPdu" ⟨Etsi.FullLinkControl.GpsInfoLcPdu, Etsi.FullLinkControl.GpsInfoLcPdu.read, Etsi.FullLinkControl.GpsInfoLcPdu.toPy⟩ :=
  constructs _ 2 (by decide) FullLinkControl_GpsInfoLcPdu_class rfl (fun _ => ⟨_, _, rfl⟩) Etsi.FullLinkControl.GpsInfoLcPdu.toPy_regular
    fun m H S k hk s _ => FullLinkControl_GpsInfoLcPdu_builds m H S k hk s (.pv .none) (.pv .none)

theorem FullLinkControl_GroupVoiceChannelUser_constructs : Constructs "Etsi.FullLinkControl.GroupVoiceChannelUser" ⟨Etsi.FullLinkControl.GroupVoiceChannelUser, Etsi.FullLinkControl.GroupVoiceChannelUser.read, Etsi.FullLinkControl.GroupVoiceChannelUser.toPy⟩ :=
  constructs _ 2 (by decide) FullLinkControl_GroupVoiceChannelUser_class rfl (fun _ => ⟨_, _, rfl⟩) Etsi.FullLinkControl.GroupVoiceChannelUser.toPy_regular
    fun m H S k hk s _ => FullLinkControl_GroupVoiceChannelUser_builds m H S k hk s (.pv .none) (.pv .none)

theorem FullLinkControl_UnitToUnitVoiceChannelUser_constructs : Constructs "Etsi.FullLinkControl.UnitToUnitVoiceChannelUser" ⟨Etsi.FullLinkControl.UnitToUnitVoiceChannelUser, Etsi.FullLinkControl.UnitToUnitVoiceChannelUser.read, Etsi.FullLinkControl.UnitToUnitVoiceChannelUser.toPy⟩ :=
  constructs _ 2 (by decide) FullLinkControl_UnitToUnitVoiceChannelUser_class rfl (fun _ => ⟨_, _, rfl⟩) Etsi.FullLinkControl.UnitToUnitVoiceChannelUser.toPy_regular
    fun m H S k hk s _ => FullLinkControl_UnitToUnitVoiceChannelUser_builds m H S k hk s (.pv .none) (.pv .none)

theorem FullLinkControl_TalkerAliasHeader_constructs : Constructs "Etsi.FullLinkControl.TalkerAliasHeader" ⟨Etsi.FullLinkControl.TalkerAliasHeader, Etsi.FullLinkControl.TalkerAliasHeader.read, Etsi.FullLinkControl.TalkerAliasHeader.toPy⟩ :=
  constructs _ 2 (by decide) FullLinkControl_TalkerAliasHeader_class rfl (fun _ => ⟨_, _, rfl⟩) Etsi.FullLinkControl.TalkerAliasHeader.toPy_regular
    fun m H S k hk s _ => FullLinkControl_TalkerAliasHeader_builds m H S k hk s (.pv .none) (.pv .none)

theorem FullLinkControl_TalkerAliasContinuation_constructs : Constructs "Etsi.FullLinkControl.TalkerAliasContinuation" ⟨Etsi.FullLinkControl.TalkerAliasContinuation, Etsi.FullLinkControl.TalkerAliasContinuation.read, Etsi.FullLinkControl.TalkerAliasContinuation.toPy⟩ :=
  constructs _ 2 (by decide) FullLinkControl_TalkerAliasContinuation_class rfl (fun _ => ⟨_, _, rfl⟩) Etsi.FullLinkControl.TalkerAliasContinuation.toPy_regular
    fun m H S k hk s _ => FullLinkControl_TalkerAliasContinuation_builds m H S k hk s (.pv .none) (.pv .none)

theorem FullLinkControl_constructs : Constructs "Etsi.FullLinkControl" ⟨Etsi.FullLinkControl, Etsi.FullLinkControl.read, Etsi.FullLinkControl.toPy⟩ :=
  constructs _ 4 (by decide) FullLinkControl_class rfl (fun _ => ⟨_, _, rfl⟩) Etsi.FullLinkControl.toPy_regular
    fun m H S k hk s _ => FullLinkControl_builds m H S k hk s (.pv .none) (.pv .none)

end ConformEtsi

theorem etsiFullLinkControl_claims : Each Claim etsiFullLinkControl :=
  ⟨ConformEtsi.FullLinkControl_GpsInfoLcPdu_constructs, ConformEtsi.FullLinkControl_GroupVoiceChannelUser_constructs, ConformEtsi.FullLinkControl_UnitToUnitVoiceChannelUser_constructs, ConformEtsi.FullLinkControl_TalkerAliasHeader_constructs, ConformEtsi.FullLinkControl_TalkerAliasContinuation_constructs, ConformEtsi.FullLinkControl_constructs, trivial⟩

namespace ConformHomebrew

theorem Homebrew2015_TypeMasterPing_constructs : Constructs "Homebrew.Homebrew2015.TypeMasterPing" ⟨Homebrew.Homebrew2015.TypeMasterPing, Homebrew.Homebrew2015.TypeMasterPing.read, Homebrew.Homebrew2015.TypeMasterPing.toPy⟩ :=
  constructs _ 2 (by decide) Homebrew2015_TypeMasterPing_class rfl (fun _ => ⟨_, _, rfl⟩) Homebrew.Homebrew2015.TypeMasterPing.toPy_regular
    fun m H S k hk s _ => Homebrew2015_TypeMasterPing_builds m H S k hk s (.pv .none) (.pv .none)

theorem Homebrew2015_TypeRepeaterPong_constructs : Constructs "Homebrew.Homebrew2015.TypeRepeaterPong" ⟨Homebrew.Homebrew2015.TypeRepeaterPong, Homebrew.Homebrew2015.TypeRepeaterPong.read, Homebrew.Homebrew2015.TypeRepeaterPong.toPy⟩ :=
  constructs _ 2 (by decide) Homebrew2015_TypeRepeaterPong_class rfl (fun _ => ⟨_, _, rfl⟩) Homebrew.Homebrew2015.TypeRepeaterPong.toPy_regular
    fun m H S k hk s _ => Homebrew2015_TypeRepeaterPong_builds m H S k hk s (.pv .none) (.pv .none)

theorem Homebrew2015_TypeRepeaterConfigurationOrClosing_alone : Unusable "Homebrew.Homebrew2015.TypeRepeaterConfigurationOrClosing" := by
  refine unusable 4 (by decide) Homebrew2015_TypeRepeaterConfigurationOrClosing_class rfl fun m H S k hk s => ?_
  rw [construct_eq library _ "Homebrew.Homebrew2015.TypeRepeaterConfigurationOrClosing" _ _ Homebrew2015_TypeRepeaterConfigurationOrClosing_class rfl rfl]
  py_run [onStream_set _ _ _ _ hk, hk, property_of _ _ _ _ Homebrew2015_TypeRepeaterConfigurationOrClosing_class, Source.Homebrew.Homebrew2015.TypeRepeaterConfigurationOrClosing, Dmr.Hytera.RadioIp.read]
  repeat (first | (refine after_ends onlyEof_readU1 _ fun _ _ => ?_) | (refine after_ends onlyEof_readU2be _ fun _ _ => ?_))
  exact ⟨_, _, rfl, .inl rfl⟩

theorem Homebrew2015_TypeRepeaterLoginResponse_constructs : Constructs "Homebrew.Homebrew2015.TypeRepeaterLoginResponse" ⟨Homebrew.Homebrew2015.TypeRepeaterLoginResponse, Homebrew.Homebrew2015.TypeRepeaterLoginResponse.read, Homebrew.Homebrew2015.TypeRepeaterLoginResponse.toPy⟩ :=
  constructs _ 2 (by decide) Homebrew2015_TypeRepeaterLoginResponse_class rfl (fun _ => ⟨_, _, rfl⟩) Homebrew.Homebrew2015.TypeRepeaterLoginResponse.toPy_regular
    fun m H S k hk s _ => Homebrew2015_TypeRepeaterLoginResponse_builds m H S k hk s (.pv .none) (.pv .none)

theorem Homebrew2015_TypeRepeaterLoginRequest_constructs : Constructs "Homebrew.Homebrew2015.TypeRepeaterLoginRequest" ⟨Homebrew.Homebrew2015.TypeRepeaterLoginRequest, Homebrew.Homebrew2015.TypeRepeaterLoginRequest.read, Homebrew.Homebrew2015.TypeRepeaterLoginRequest.toPy⟩ :=
  constructs _ 2 (by decide) Homebrew2015_TypeRepeaterLoginRequest_class rfl (fun _ => ⟨_, _, rfl⟩) Homebrew.Homebrew2015.TypeRepeaterLoginRequest.toPy_regular
    fun m H S k hk s _ => Homebrew2015_TypeRepeaterLoginRequest_builds m H S k hk s (.pv .none) (.pv .none)

theorem Homebrew2015_TypeMasterNotAccept_constructs : Constructs "Homebrew.Homebrew2015.TypeMasterNotAccept" ⟨Homebrew.Homebrew2015.TypeMasterNotAccept, Homebrew.Homebrew2015.TypeMasterNotAccept.read, Homebrew.Homebrew2015.TypeMasterNotAccept.toPy⟩ :=
  constructs _ 2 (by decide) Homebrew2015_TypeMasterNotAccept_class rfl (fun _ => ⟨_, _, rfl⟩) Homebrew.Homebrew2015.TypeMasterNotAccept.toPy_regular
    fun m H S k hk s _ => Homebrew2015_TypeMasterNotAccept_builds m H S k hk s (.pv .none) (.pv .none)

theorem Homebrew2015_TypeMasterRepeaterAck_constructs : Constructs "Homebrew.Homebrew2015.TypeMasterRepeaterAck" ⟨Homebrew.Homebrew2015.TypeMasterRepeaterAck, Homebrew.Homebrew2015.TypeMasterRepeaterAck.read, Homebrew.Homebrew2015.TypeMasterRepeaterAck.toPy⟩ :=
  constructs _ 2 (by decide) Homebrew2015_TypeMasterRepeaterAck_class rfl (fun _ => ⟨_, _, rfl⟩) Homebrew.Homebrew2015.TypeMasterRepeaterAck.toPy_regular
    fun m H S k hk s _ => Homebrew2015_TypeMasterRepeaterAck_builds m H S k hk s (.pv .none) (.pv .none)

theorem Homebrew2015_TypeMasterClosing_constructs : Constructs "Homebrew.Homebrew2015.TypeMasterClosing" ⟨Homebrew.Homebrew2015.TypeMasterClosing, Homebrew.Homebrew2015.TypeMasterClosing.read, Homebrew.Homebrew2015.TypeMasterClosing.toPy⟩ :=
  constructs _ 2 (by decide) Homebrew2015_TypeMasterClosing_class rfl (fun _ => ⟨_, _, rfl⟩) Homebrew.Homebrew2015.TypeMasterClosing.toPy_regular
    fun m H S k hk s _ => Homebrew2015_TypeMasterClosing_builds m H S k hk s (.pv .none) (.pv .none)

theorem Homebrew2015_TypeDmrData_constructs : Constructs "Homebrew.Homebrew2015.TypeDmrData" ⟨Homebrew.Homebrew2015.TypeDmrData, Homebrew.Homebrew2015.TypeDmrData.read, Homebrew.Homebrew2015.TypeDmrData.toPy⟩ :=
  constructs _ 2 (by decide) Homebrew2015_TypeDmrData_class rfl (fun _ => ⟨_, _, rfl⟩) Homebrew.Homebrew2015.TypeDmrData.toPy_regular
    fun m H S k hk s _ => Homebrew2015_TypeDmrData_builds m H S k hk s (.pv .none) (.pv .none)

theorem Homebrew2015_TypeRepeaterOptions_constructs : Constructs "Homebrew.Homebrew2015.TypeRepeaterOptions" ⟨Homebrew.Homebrew2015.TypeRepeaterOptions, Homebrew.Homebrew2015.TypeRepeaterOptions.read, Homebrew.Homebrew2015.TypeRepeaterOptions.toPy⟩ :=
  constructs _ 2 (by decide) Homebrew2015_TypeRepeaterOptions_class rfl (fun _ => ⟨_, _, rfl⟩) Homebrew.Homebrew2015.TypeRepeaterOptions.toPy_regular
    fun m H S k hk s _ => Homebrew2015_TypeRepeaterOptions_builds m H S k hk s (.pv .none) (.pv .none)

theorem Homebrew2015_TypeRepeaterClosing_constructs : Constructs "Homebrew.Homebrew2015.TypeRepeaterClosing" ⟨Homebrew.Homebrew2015.TypeRepeaterClosing, Homebrew.Homebrew2015.TypeRepeaterClosing.read, Homebrew.Homebrew2015.TypeRepeaterClosing.toPy⟩ :=
  constructs _ 2 (by decide) Homebrew2015_TypeRepeaterClosing_class rfl (fun _ => ⟨_, _, rfl⟩) Homebrew.Homebrew2015.TypeRepeaterClosing.toPy_regular
    fun m H S k hk s _ => Homebrew2015_TypeRepeaterClosing_builds m H S k hk s (.pv .none) (.pv .none)

theorem Homebrew2015_TypeRepeaterConfiguration_constructs : Constructs "Homebrew.Homebrew2015.TypeRepeaterConfiguration" ⟨Homebrew.Homebrew2015.TypeRepeaterConfiguration, Homebrew.Homebrew2015.TypeRepeaterConfiguration.read, Homebrew.Homebrew2015.TypeRepeaterConfiguration.toPy⟩ :=
  constructs _ 2 (by decide) Homebrew2015_TypeRepeaterConfiguration_class rfl (fun _ => ⟨_, _, rfl⟩) Homebrew.Homebrew2015.TypeRepeaterConfiguration.toPy_regular
    fun m H S k hk s _ => Homebrew2015_TypeRepeaterConfiguration_builds m H S k hk s (.pv .none) (.pv .none)

theorem Homebrew2015_constructs : Constructs "Homebrew.Homebrew2015" ⟨Homebrew.Homebrew2015, Homebrew.Homebrew2015.read, Homebrew.Homebrew2015.toPy⟩ :=
  constructs _ 6 (by decide) Homebrew2015_class rfl (fun _ => ⟨_, _, rfl⟩) Homebrew.Homebrew2015.toPy_regular
    fun m H S k hk s h => Homebrew2015_builds m H S k hk s (h (by simp [fromStart]))

end ConformHomebrew

theorem homebrewHomebrew2015_claims : Each Claim homebrewHomebrew2015 :=
  ⟨ConformHomebrew.Homebrew2015_TypeMasterPing_constructs, ConformHomebrew.Homebrew2015_TypeRepeaterPong_constructs, ConformHomebrew.Homebrew2015_TypeRepeaterConfigurationOrClosing_alone, ConformHomebrew.Homebrew2015_TypeRepeaterLoginResponse_constructs, ConformHomebrew.Homebrew2015_TypeRepeaterLoginRequest_constructs, ConformHomebrew.Homebrew2015_TypeMasterNotAccept_constructs, ConformHomebrew.Homebrew2015_TypeMasterRepeaterAck_constructs, ConformHomebrew.Homebrew2015_TypeMasterClosing_constructs, ConformHomebrew.Homebrew2015_TypeDmrData_constructs, ConformHomebrew.Homebrew2015_TypeRepeaterOptions_constructs, ConformHomebrew.Homebrew2015_TypeRepeaterClosing_constructs, ConformHomebrew.Homebrew2015_TypeRepeaterConfiguration_constructs, ConformHomebrew.Homebrew2015_constructs, trivial⟩

namespace ConformHomebrew

theorem Mmdvm2020_TypeMasterPong_constructs : Constructs "Homebrew.Mmdvm2020.TypeMasterPong" ⟨Homebrew.Mmdvm2020.TypeMasterPong, Homebrew.Mmdvm2020.TypeMasterPong.read, Homebrew.Mmdvm2020.TypeMasterPong.toPy⟩ :=
  constructs _ 2 (by decide) Mmdvm2020_TypeMasterPong_class rfl (fun _ => ⟨_, _, rfl⟩) Homebrew.Mmdvm2020.TypeMasterPong.toPy_regular
    fun m H S k hk s _ => Mmdvm2020_TypeMasterPong_builds m H S k hk s (.pv .none) (.pv .none)

theorem Mmdvm2020_TypeRadioPosition_constructs : Constructs "Homebrew.Mmdvm2020.TypeRadioPosition" ⟨Homebrew.Mmdvm2020.TypeRadioPosition, Homebrew.Mmdvm2020.TypeRadioPosition.read, Homebrew.Mmdvm2020.TypeRadioPosition.toPy⟩ :=
  constructs _ 2 (by decide) Mmdvm2020_TypeRadioPosition_class rfl (fun _ => ⟨_, _, rfl⟩) Homebrew.Mmdvm2020.TypeRadioPosition.toPy_regular
    fun m H S k hk s _ => Mmdvm2020_TypeRadioPosition_builds m H S k hk s (.pv .none) (.pv .none)

theorem Mmdvm2020_TypeTalkerAlias_constructs : Constructs "Homebrew.Mmdvm2020.TypeTalkerAlias" ⟨Homebrew.Mmdvm2020.TypeTalkerAlias, Homebrew.Mmdvm2020.TypeTalkerAlias.read, Homebrew.Mmdvm2020.TypeTalkerAlias.toPy⟩ :=
  constructs _ 2 (by decide) Mmdvm2020_TypeTalkerAlias_class rfl (fun _ => ⟨_, _, rfl⟩) Homebrew.Mmdvm2020.TypeTalkerAlias.toPy_regular
    fun m H S k hk s _ => Mmdvm2020_TypeTalkerAlias_builds m H S k hk s (.pv .none) (.pv .none)

theorem Mmdvm2020_TypeRepeaterConfigurationOrClosing_alone : Unusable "Homebrew.Mmdvm2020.TypeRepeaterConfigurationOrClosing" := by
  refine unusable 4 (by decide) Mmdvm2020_TypeRepeaterConfigurationOrClosing_class rfl fun m H S k hk s => ?_
  rw [construct_eq library _ "Homebrew.Mmdvm2020.TypeRepeaterConfigurationOrClosing" _ _ Mmdvm2020_TypeRepeaterConfigurationOrClosing_class rfl rfl]
  py_run [onStream_set _ _ _ _ hk, hk, property_of _ _ _ _ Mmdvm2020_TypeRepeaterConfigurationOrClosing_class, Source.Homebrew.Mmdvm2020.TypeRepeaterConfigurationOrClosing, Dmr.Hytera.RadioIp.read]
  repeat (first | (refine after_ends onlyEof_readU1 _ fun _ _ => ?_) | (refine after_ends onlyEof_readU2be _ fun _ _ => ?_))
  exact ⟨_, _, rfl, .inl rfl⟩

theorem Mmdvm2020_TypeRepeaterLoginResponse_constructs : Constructs "Homebrew.Mmdvm2020.TypeRepeaterLoginResponse" ⟨Homebrew.Mmdvm2020.TypeRepeaterLoginResponse, Homebrew.Mmdvm2020.TypeRepeaterLoginResponse.read, Homebrew.Mmdvm2020.TypeRepeaterLoginResponse.toPy⟩ :=
  constructs _ 2 (by decide) Mmdvm2020_TypeRepeaterLoginResponse_class rfl (fun _ => ⟨_, _, rfl⟩) Homebrew.Mmdvm2020.TypeRepeaterLoginResponse.toPy_regular
    fun m H S k hk s _ => Mmdvm2020_TypeRepeaterLoginResponse_builds m H S k hk s (.pv .none) (.pv .none)

theorem Mmdvm2020_TypeRepeaterLoginRequest_constructs : Constructs "Homebrew.Mmdvm2020.TypeRepeaterLoginRequest" ⟨Homebrew.Mmdvm2020.TypeRepeaterLoginRequest, Homebrew.Mmdvm2020.TypeRepeaterLoginRequest.read, Homebrew.Mmdvm2020.TypeRepeaterLoginRequest.toPy⟩ :=
  constructs _ 2 (by decide) Mmdvm2020_TypeRepeaterLoginRequest_class rfl (fun _ => ⟨_, _, rfl⟩) Homebrew.Mmdvm2020.TypeRepeaterLoginRequest.toPy_regular
    fun m H S k hk s _ => Mmdvm2020_TypeRepeaterLoginRequest_builds m H S k hk s (.pv .none) (.pv .none)

theorem Mmdvm2020_TypeMasterNotAccept_constructs : Constructs "Homebrew.Mmdvm2020.TypeMasterNotAccept" ⟨Homebrew.Mmdvm2020.TypeMasterNotAccept, Homebrew.Mmdvm2020.TypeMasterNotAccept.read, Homebrew.Mmdvm2020.TypeMasterNotAccept.toPy⟩ :=
  constructs _ 2 (by decide) Mmdvm2020_TypeMasterNotAccept_class rfl (fun _ => ⟨_, _, rfl⟩) Homebrew.Mmdvm2020.TypeMasterNotAccept.toPy_regular
    fun m H S k hk s _ => Mmdvm2020_TypeMasterNotAccept_builds m H S k hk s (.pv .none) (.pv .none)

theorem Mmdvm2020_TypeUnknown_constructs : Constructs "Homebrew.Mmdvm2020.TypeUnknown" ⟨Homebrew.Mmdvm2020.TypeUnknown, Homebrew.Mmdvm2020.TypeUnknown.read, Homebrew.Mmdvm2020.TypeUnknown.toPy⟩ :=
  constructs _ 2 (by decide) Mmdvm2020_TypeUnknown_class rfl (fun _ => ⟨_, _, rfl⟩) Homebrew.Mmdvm2020.TypeUnknown.toPy_regular
    fun m H S k hk s _ => Mmdvm2020_TypeUnknown_builds m H S k hk s (.pv .none) (.pv .none)

theorem Mmdvm2020_TypeMasterRepeaterAck_constructs : Constructs "Homebrew.Mmdvm2020.TypeMasterRepeaterAck" ⟨Homebrew.Mmdvm2020.TypeMasterRepeaterAck, Homebrew.Mmdvm2020.TypeMasterRepeaterAck.read, Homebrew.Mmdvm2020.TypeMasterRepeaterAck.toPy⟩ :=
  constructs _ 2 (by decide) Mmdvm2020_TypeMasterRepeaterAck_class rfl (fun _ => ⟨_, _, rfl⟩) Homebrew.Mmdvm2020.TypeMasterRepeaterAck.toPy_regular
    fun m H S k hk s _ => Mmdvm2020_TypeMasterRepeaterAck_builds m H S k hk s (.pv .none) (.pv .none)

theorem Mmdvm2020_TypeMasterClosing_constructs : Constructs "Homebrew.Mmdvm2020.TypeMasterClosing" ⟨Homebrew.Mmdvm2020.TypeMasterClosing, Homebrew.Mmdvm2020.TypeMasterClosing.read, Homebrew.Mmdvm2020.TypeMasterClosing.toPy⟩ :=
  constructs _ 2 (by decide) Mmdvm2020_TypeMasterClosing_class rfl (fun _ => ⟨_, _, rfl⟩) Homebrew.Mmdvm2020.TypeMasterClosing.toPy_regular
    fun m H S k hk s _ => Mmdvm2020_TypeMasterClosing_builds m H S k hk s (.pv .none) (.pv .none)

theorem Mmdvm2020_TypeDmrData_constructs : Constructs "Homebrew.Mmdvm2020.TypeDmrData" ⟨Homebrew.Mmdvm2020.TypeDmrData, Homebrew.Mmdvm2020.TypeDmrData.read, Homebrew.Mmdvm2020.TypeDmrData.toPy⟩ :=
  constructs _ 2 (by decide) Mmdvm2020_TypeDmrData_class rfl (fun _ => ⟨_, _, rfl⟩) Homebrew.Mmdvm2020.TypeDmrData.toPy_regular
    fun m H S k hk s _ => Mmdvm2020_TypeDmrData_builds m H S k hk s (.pv .none) (.pv .none)

theorem Mmdvm2020_TypeRepeaterBeacon_constructs : Constructs "Homebrew.Mmdvm2020.TypeRepeaterBeacon" ⟨Homebrew.Mmdvm2020.TypeRepeaterBeacon, Homebrew.Mmdvm2020.TypeRepeaterBeacon.read, Homebrew.Mmdvm2020.TypeRepeaterBeacon.toPy⟩ :=
  constructs _ 2 (by decide) Mmdvm2020_TypeRepeaterBeacon_class rfl (fun _ => ⟨_, _, rfl⟩) Homebrew.Mmdvm2020.TypeRepeaterBeacon.toPy_regular
    fun m H S k hk s _ => Mmdvm2020_TypeRepeaterBeacon_builds m H S k hk s (.pv .none) (.pv .none)

theorem Mmdvm2020_TypeRepeaterOptions_constructs : Constructs "Homebrew.Mmdvm2020.TypeRepeaterOptions" ⟨Homebrew.Mmdvm2020.TypeRepeaterOptions, Homebrew.Mmdvm2020.TypeRepeaterOptions.read, Homebrew.Mmdvm2020.TypeRepeaterOptions.toPy⟩ :=
  constructs _ 2 (by decide) Mmdvm2020_TypeRepeaterOptions_class rfl (fun _ => ⟨_, _, rfl⟩) Homebrew.Mmdvm2020.TypeRepeaterOptions.toPy_regular
    fun m H S k hk s _ => Mmdvm2020_TypeRepeaterOptions_builds m H S k hk s (.pv .none) (.pv .none)

theorem Mmdvm2020_TypeRepeaterClosing_constructs : Constructs "Homebrew.Mmdvm2020.TypeRepeaterClosing" ⟨Homebrew.Mmdvm2020.TypeRepeaterClosing, Homebrew.Mmdvm2020.TypeRepeaterClosing.read, Homebrew.Mmdvm2020.TypeRepeaterClosing.toPy⟩ :=
  constructs _ 2 (by decide) Mmdvm2020_TypeRepeaterClosing_class rfl (fun _ => ⟨_, _, rfl⟩) Homebrew.Mmdvm2020.TypeRepeaterClosing.toPy_regular
    fun m H S k hk s _ => Mmdvm2020_TypeRepeaterClosing_builds m H S k hk s (.pv .none) (.pv .none)

theorem Mmdvm2020_TypeRepeaterConfiguration_constructs : Constructs "Homebrew.Mmdvm2020.TypeRepeaterConfiguration" ⟨Homebrew.Mmdvm2020.TypeRepeaterConfiguration, Homebrew.Mmdvm2020.TypeRepeaterConfiguration.read, Homebrew.Mmdvm2020.TypeRepeaterConfiguration.toPy⟩ :=
  constructs _ 2 (by decide) Mmdvm2020_TypeRepeaterConfiguration_class rfl (fun _ => ⟨_, _, rfl⟩) Homebrew.Mmdvm2020.TypeRepeaterConfiguration.toPy_regular
    fun m H S k hk s _ => Mmdvm2020_TypeRepeaterConfiguration_builds m H S k hk s (.pv .none) (.pv .none)

theorem Mmdvm2020_TypeRepeaterPing_constructs : Constructs "Homebrew.Mmdvm2020.TypeRepeaterPing" ⟨Homebrew.Mmdvm2020.TypeRepeaterPing, Homebrew.Mmdvm2020.TypeRepeaterPing.read, Homebrew.Mmdvm2020.TypeRepeaterPing.toPy⟩ :=
  constructs _ 2 (by decide) Mmdvm2020_TypeRepeaterPing_class rfl (fun _ => ⟨_, _, rfl⟩) Homebrew.Mmdvm2020.TypeRepeaterPing.toPy_regular
    fun m H S k hk s _ => Mmdvm2020_TypeRepeaterPing_builds m H S k hk s (.pv .none) (.pv .none)

theorem Mmdvm2020_constructs : Constructs "Homebrew.Mmdvm2020" ⟨Homebrew.Mmdvm2020, Homebrew.Mmdvm2020.read, Homebrew.Mmdvm2020.toPy⟩ :=
  constructs _ 6 (by decide) Mmdvm2020_class rfl (fun _ => ⟨_, _, rfl⟩) Homebrew.Mmdvm2020.toPy_regular
    fun m H S k hk s h => Mmdvm2020_builds m H S k hk s (h (by simp [fromStart]))

end ConformHomebrew

theorem homebrewMmdvm2020_claims : Each Claim homebrewMmdvm2020 :=
  ⟨ConformHomebrew.Mmdvm2020_TypeMasterPong_constructs, ConformHomebrew.Mmdvm2020_TypeRadioPosition_constructs, ConformHomebrew.Mmdvm2020_TypeTalkerAlias_constructs, ConformHomebrew.Mmdvm2020_TypeRepeaterConfigurationOrClosing_alone, ConformHomebrew.Mmdvm2020_TypeRepeaterLoginResponse_constructs, ConformHomebrew.Mmdvm2020_TypeRepeaterLoginRequest_constructs, ConformHomebrew.Mmdvm2020_TypeMasterNotAccept_constructs, ConformHomebrew.Mmdvm2020_TypeUnknown_constructs, ConformHomebrew.Mmdvm2020_TypeMasterRepeaterAck_constructs, ConformHomebrew.Mmdvm2020_TypeMasterClosing_constructs, ConformHomebrew.Mmdvm2020_TypeDmrData_constructs, ConformHomebrew.Mmdvm2020_TypeRepeaterBeacon_constructs, ConformHomebrew.Mmdvm2020_TypeRepeaterOptions_constructs, ConformHomebrew.Mmdvm2020_TypeRepeaterClosing_constructs, ConformHomebrew.Mmdvm2020_TypeRepeaterConfiguration_constructs, ConformHomebrew.Mmdvm2020_TypeRepeaterPing_constructs, ConformHomebrew.Mmdvm2020_constructs, trivial⟩

namespace ConformMotorola

theorem AutomaticRegistrationService_AcknowledgementMessage_alone : Unusable "Motorola.AutomaticRegistrationService.AcknowledgementMessage" := by
  refine unusable 4 (by decide) AutomaticRegistrationService_AcknowledgementMessage_class rfl fun m H S k hk s => ?_
  rw [construct_eq library _ "Motorola.AutomaticRegistrationService.AcknowledgementMessage" _ _ AutomaticRegistrationService_AcknowledgementMessage_class rfl rfl]
  py_run [onStream_set _ _ _ _ hk, hk, property_of _ _ _ _ AutomaticRegistrationService_AcknowledgementMessage_class, Source.Motorola.AutomaticRegistrationService.AcknowledgementMessage, Dmr.Hytera.RadioIp.read]
  repeat (first | (refine after_ends onlyEof_readU1 _ fun _ _ => ?_) | (refine after_ends onlyEof_readU2be _ fun _ _ => ?_))
  exact ⟨_, _, rfl, .inl rfl⟩

theorem AutomaticRegistrationService_DeviceRegistrationMessageHeader_constructs : Constructs "Motorola.AutomaticRegistrationService.DeviceRegistrationMessageHeader" ⟨Motorola.AutomaticRegistrationService.DeviceRegistrationMessageHeader, Motorola.AutomaticRegistrationService.DeviceRegistrationMessageHeader.read, Motorola.AutomaticRegistrationService.DeviceRegistrationMessageHeader.toPy⟩ :=
  constructs _ 2 (by decide) AutomaticRegistrationService_DeviceRegistrationMessageHeader_class rfl (fun _ => ⟨_, _, rfl⟩) Motorola.AutomaticRegistrationService.DeviceRegistrationMessageHeader.toPy_regular
    fun m H S k hk s _ => AutomaticRegistrationService_DeviceRegistrationMessageHeader_builds m H S k hk s (.pv .none) (.pv .none)

theorem AutomaticRegistrationService_MessageHeaderBits_constructs : Constructs "Motorola.AutomaticRegistrationService.MessageHeaderBits" ⟨Motorola.AutomaticRegistrationService.MessageHeaderBits, Motorola.AutomaticRegistrationService.MessageHeaderBits.read, Motorola.AutomaticRegistrationService.MessageHeaderBits.toPy⟩ :=
  constructs _ 2 (by decide) AutomaticRegistrationService_MessageHeaderBits_class rfl (fun _ => ⟨_, _, rfl⟩) Motorola.AutomaticRegistrationService.MessageHeaderBits.toPy_regular
    fun m H S k hk s _ => AutomaticRegistrationService_MessageHeaderBits_builds m H S k hk s (.pv .none) (.pv .none)

theorem AutomaticRegistrationService_DeviceDeregistrationMessage_constructs : Constructs "Motorola.AutomaticRegistrationService.DeviceDeregistrationMessage" ⟨Motorola.AutomaticRegistrationService.DeviceDeregistrationMessage, Motorola.AutomaticRegistrationService.DeviceDeregistrationMessage.read, Motorola.AutomaticRegistrationService.DeviceDeregistrationMessage.toPy⟩ :=
  constructs _ 2 (by decide) AutomaticRegistrationService_DeviceDeregistrationMessage_class rfl (fun _ => ⟨_, _, rfl⟩) Motorola.AutomaticRegistrationService.DeviceDeregistrationMessage.toPy_regular
    fun m H S k hk s _ => AutomaticRegistrationService_DeviceDeregistrationMessage_builds m H S k hk s (.pv .none) (.pv .none)

theorem AutomaticRegistrationService_DeviceRegistrationAcknowledgementFailureReason_constructs : Constructs "Motorola.AutomaticRegistrationService.DeviceRegistrationAcknowledgementFailureReason" ⟨Motorola.AutomaticRegistrationService.DeviceRegistrationAcknowledgementFailureReason, Motorola.AutomaticRegistrationService.DeviceRegistrationAcknowledgementFailureReason.read, Motorola.AutomaticRegistrationService.DeviceRegistrationAcknowledgementFailureReason.toPy⟩ :=
  constructs _ 2 (by decide) AutomaticRegistrationService_DeviceRegistrationAcknowledgementFailureReason_class rfl (fun _ => ⟨_, _, rfl⟩) Motorola.AutomaticRegistrationService.DeviceRegistrationAcknowledgementFailureReason.toPy_regular
    fun m H S k hk s _ => AutomaticRegistrationService_DeviceRegistrationAcknowledgementFailureReason_builds m H S k hk s (.pv .none) (.pv .none)

theorem AutomaticRegistrationService_DeviceRegistrationMessage_alone : Unusable "Motorola.AutomaticRegistrationService.DeviceRegistrationMessage" := by
  refine unusable 4 (by decide) AutomaticRegistrationService_DeviceRegistrationMessage_class rfl fun m H S k hk s => ?_
  rw [construct_eq library _ "Motorola.AutomaticRegistrationService.DeviceRegistrationMessage" _ _ AutomaticRegistrationService_DeviceRegistrationMessage_class rfl rfl]
  py_run [onStream_set _ _ _ _ hk, hk, property_of _ _ _ _ AutomaticRegistrationService_DeviceRegistrationMessage_class, Source.Motorola.AutomaticRegistrationService.DeviceRegistrationMessage, Dmr.Hytera.RadioIp.read]
  repeat (first | (refine after_ends onlyEof_readU1 _ fun _ _ => ?_) | (refine after_ends onlyEof_readU2be _ fun _ _ => ?_))
  exact ⟨_, _, rfl, .inl rfl⟩

theorem AutomaticRegistrationService_ArsQueryMessage_constructs : Constructs "Motorola.AutomaticRegistrationService.ArsQueryMessage" ⟨Motorola.AutomaticRegistrationService.ArsQueryMessage, Motorola.AutomaticRegistrationService.ArsQueryMessage.read, Motorola.AutomaticRegistrationService.ArsQueryMessage.toPy⟩ :=
  constructs _ 2 (by decide) AutomaticRegistrationService_ArsQueryMessage_class rfl (fun _ => ⟨_, _, rfl⟩) Motorola.AutomaticRegistrationService.ArsQueryMessage.toPy_regular
    fun m H S k hk s _ => AutomaticRegistrationService_ArsQueryMessage_builds m H S k hk s (.pv .none) (.pv .none)

theorem AutomaticRegistrationService_DeviceRegistrationAcknowledgementHeader_constructs : Constructs "Motorola.AutomaticRegistrationService.DeviceRegistrationAcknowledgementHeader" ⟨Motorola.AutomaticRegistrationService.DeviceRegistrationAcknowledgementHeader, Motorola.AutomaticRegistrationService.DeviceRegistrationAcknowledgementHeader.read, Motorola.AutomaticRegistrationService.DeviceRegistrationAcknowledgementHeader.toPy⟩ :=
  constructs _ 2 (by decide) AutomaticRegistrationService_DeviceRegistrationAcknowledgementHeader_class rfl (fun _ => ⟨_, _, rfl⟩) Motorola.AutomaticRegistrationService.DeviceRegistrationAcknowledgementHeader.toPy_regular
    fun m H S k hk s _ => AutomaticRegistrationService_DeviceRegistrationAcknowledgementHeader_builds m H S k hk s (.pv .none) (.pv .none)

theorem AutomaticRegistrationService_constructs : Constructs "Motorola.AutomaticRegistrationService" ⟨Motorola.AutomaticRegistrationService, Motorola.AutomaticRegistrationService.read, Motorola.AutomaticRegistrationService.toPy⟩ :=
  constructs _ 6 (by decide) AutomaticRegistrationService_class rfl (fun _ => ⟨_, _, rfl⟩) Motorola.AutomaticRegistrationService.toPy_regular
    fun m H S k hk s _ => AutomaticRegistrationService_builds m H S k hk s

end ConformMotorola

theorem motorolaAutomaticRegistrationService_claims : Each Claim motorolaAutomaticRegistrationService :=
  ⟨ConformMotorola.AutomaticRegistrationService_AcknowledgementMessage_alone, ConformMotorola.AutomaticRegistrationService_DeviceRegistrationMessageHeader_constructs, ConformMotorola.AutomaticRegistrationService_MessageHeaderBits_constructs, ConformMotorola.AutomaticRegistrationService_DeviceDeregistrationMessage_constructs, ConformMotorola.AutomaticRegistrationService_DeviceRegistrationAcknowledgementFailureReason_constructs, ConformMotorola.AutomaticRegistrationService_DeviceRegistrationMessage_alone, ConformMotorola.AutomaticRegistrationService_ArsQueryMessage_constructs, ConformMotorola.AutomaticRegistrationService_DeviceRegistrationAcknowledgementHeader_constructs, ConformMotorola.AutomaticRegistrationService_constructs, trivial⟩

namespace ConformMotorola

theorem MotorolaBinaryXml_LrrpImmediateRequestNcdt_constructs : Constructs "Motorola.MotorolaBinaryXml.LrrpImmediateRequestNcdt" ⟨Motorola.MotorolaBinaryXml.LrrpImmediateRequestNcdt, Motorola.MotorolaBinaryXml.LrrpImmediateRequestNcdt.read, Motorola.MotorolaBinaryXml.LrrpImmediateRequestNcdt.toPy⟩ :=
  constructs _ 8 (by decide) MotorolaBinaryXml_LrrpImmediateRequestNcdt_class rfl (fun _ => ⟨_, _, rfl⟩) Motorola.MotorolaBinaryXml.LrrpImmediateRequestNcdt.toPy_regular
    fun m H S k hk s _ => MotorolaBinaryXml_LrrpImmediateRequestNcdt_builds m H S k hk s (.pv .none) (.pv .none)

theorem MotorolaBinaryXml_Opaque3byteValue_constructs : Constructs "Motorola.MotorolaBinaryXml.Opaque3byteValue" ⟨Motorola.MotorolaBinaryXml.Opaque3byteValue, Motorola.MotorolaBinaryXml.Opaque3byteValue.read, Motorola.MotorolaBinaryXml.Opaque3byteValue.toPy⟩ :=
  constructs _ 2 (by decide) MotorolaBinaryXml_Opaque3byteValue_class rfl (fun _ => ⟨_, _, rfl⟩) Motorola.MotorolaBinaryXml.Opaque3byteValue.toPy_regular
    fun m H S k hk s _ => MotorolaBinaryXml_Opaque3byteValue_builds m H S k hk s (.pv .none) (.pv .none)

theorem MotorolaBinaryXml_LrrpElement_constructs : Constructs "Motorola.MotorolaBinaryXml.LrrpElement" ⟨Motorola.MotorolaBinaryXml.LrrpElement, Motorola.MotorolaBinaryXml.LrrpElement.read, Motorola.MotorolaBinaryXml.LrrpElement.toPy⟩ :=
  constructs _ 6 (by decide) MotorolaBinaryXml_LrrpElement_class rfl (fun _ => ⟨_, _, rfl⟩) Motorola.MotorolaBinaryXml.LrrpElement.toPy_regular
    fun m H S k hk s _ => MotorolaBinaryXml_LrrpElement_builds m H S k hk s (.pv .none) (.pv .none)

theorem MotorolaBinaryXml_Sfloatvar_constructs : Constructs "Motorola.MotorolaBinaryXml.Sfloatvar" ⟨Motorola.MotorolaBinaryXml.Sfloatvar, Motorola.MotorolaBinaryXml.Sfloatvar.read, Motorola.MotorolaBinaryXml.Sfloatvar.toPy⟩ :=
  constructs _ 4 (by decide) MotorolaBinaryXml_Sfloatvar_class rfl (fun _ => ⟨_, _, rfl⟩) Motorola.MotorolaBinaryXml.Sfloatvar.toPy_regular
    fun m H S k hk s _ => MotorolaBinaryXml_Sfloatvar_builds m H S k hk s (.pv .none) (.pv .none)

theorem MotorolaBinaryXml_Opaque5byteValue_constructs : Constructs "Motorola.MotorolaBinaryXml.Opaque5byteValue" ⟨Motorola.MotorolaBinaryXml.Opaque5byteValue, Motorola.MotorolaBinaryXml.Opaque5byteValue.read, Motorola.MotorolaBinaryXml.Opaque5byteValue.toPy⟩ :=
  constructs _ 2 (by decide) MotorolaBinaryXml_Opaque5byteValue_class rfl (fun _ => ⟨_, _, rfl⟩) Motorola.MotorolaBinaryXml.Opaque5byteValue.toPy_regular
    fun m H S k hk s _ => MotorolaBinaryXml_Opaque5byteValue_builds m H S k hk s (.pv .none) (.pv .none)

theorem MotorolaBinaryXml_Opaque1byteValue_constructs : Constructs "Motorola.MotorolaBinaryXml.Opaque1byteValue" ⟨Motorola.MotorolaBinaryXml.Opaque1byteValue, Motorola.MotorolaBinaryXml.Opaque1byteValue.read, Motorola.MotorolaBinaryXml.Opaque1byteValue.toPy⟩ :=
  constructs _ 2 (by decide) MotorolaBinaryXml_Opaque1byteValue_class rfl (fun _ => ⟨_, _, rfl⟩) Motorola.MotorolaBinaryXml.Opaque1byteValue.toPy_regular
    fun m H S k hk s _ => MotorolaBinaryXml_Opaque1byteValue_builds m H S k hk s (.pv .none) (.pv .none)

theorem MotorolaBinaryXml_Uintvar_constructs : Constructs "Motorola.MotorolaBinaryXml.Uintvar" ⟨Motorola.MotorolaBinaryXml.Uintvar, Motorola.MotorolaBinaryXml.Uintvar.read, Motorola.MotorolaBinaryXml.Uintvar.toPy⟩ :=
  constructs _ 2 (by decide) MotorolaBinaryXml_Uintvar_class rfl (fun _ => ⟨_, _, rfl⟩) Motorola.MotorolaBinaryXml.Uintvar.toPy_regular
    fun m H S k hk s _ => MotorolaBinaryXml_Uintvar_builds m H S k hk s (.pv .none) (.pv .none)

theorem MotorolaBinaryXml_Ufloatvar_constructs : Constructs "Motorola.MotorolaBinaryXml.Ufloatvar" ⟨Motorola.MotorolaBinaryXml.Ufloatvar, Motorola.MotorolaBinaryXml.Ufloatvar.read, Motorola.MotorolaBinaryXml.Ufloatvar.toPy⟩ :=
  constructs _ 4 (by decide) MotorolaBinaryXml_Ufloatvar_class rfl (fun _ => ⟨_, _, rfl⟩) Motorola.MotorolaBinaryXml.Ufloatvar.toPy_regular
    fun m H S k hk s _ => MotorolaBinaryXml_Ufloatvar_builds m H S k hk s (.pv .none) (.pv .none)

theorem MotorolaBinaryXml_ConstantDataTableReference_constructs : Constructs "Motorola.MotorolaBinaryXml.ConstantDataTableReference" ⟨Motorola.MotorolaBinaryXml.ConstantDataTableReference, Motorola.MotorolaBinaryXml.ConstantDataTableReference.read, Motorola.MotorolaBinaryXml.ConstantDataTableReference.toPy⟩ :=
  constructs _ 4 (by decide) MotorolaBinaryXml_ConstantDataTableReference_class rfl (fun _ => ⟨_, _, rfl⟩) Motorola.MotorolaBinaryXml.ConstantDataTableReference.toPy_regular
    fun m H S k hk s _ => MotorolaBinaryXml_ConstantDataTableReference_builds m H S k hk s (.pv .none) (.pv .none)

theorem MotorolaBinaryXml_MbxmlDocument_constructs : Constructs "Motorola.MotorolaBinaryXml.MbxmlDocument" ⟨Motorola.MotorolaBinaryXml.MbxmlDocument, Motorola.MotorolaBinaryXml.MbxmlDocument.read, Motorola.MotorolaBinaryXml.MbxmlDocument.toPy⟩ :=
  constructs _ 10 (by decide) MotorolaBinaryXml_MbxmlDocument_class rfl (fun _ => ⟨_, _, rfl⟩) Motorola.MotorolaBinaryXml.MbxmlDocument.toPy_regular
    fun m H S k hk s _ => MotorolaBinaryXml_MbxmlDocument_builds m H S k hk s (.pv .none) (.pv .none)

theorem MotorolaBinaryXml_OpaqueElementValue_constructs : Constructs "Motorola.MotorolaBinaryXml.OpaqueElementValue" ⟨Motorola.MotorolaBinaryXml.OpaqueElementValue, Motorola.MotorolaBinaryXml.OpaqueElementValue.read, Motorola.MotorolaBinaryXml.OpaqueElementValue.toPy⟩ :=
  constructs _ 2 (by decide) MotorolaBinaryXml_OpaqueElementValue_class rfl (fun _ => ⟨_, _, rfl⟩) Motorola.MotorolaBinaryXml.OpaqueElementValue.toPy_regular
    fun m H S k hk s _ => MotorolaBinaryXml_OpaqueElementValue_builds m H S k hk s (.pv .none) (.pv .none)

theorem MotorolaBinaryXml_Opaque2byteValue_constructs : Constructs "Motorola.MotorolaBinaryXml.Opaque2byteValue" ⟨Motorola.MotorolaBinaryXml.Opaque2byteValue, Motorola.MotorolaBinaryXml.Opaque2byteValue.read, Motorola.MotorolaBinaryXml.Opaque2byteValue.toPy⟩ :=
  constructs _ 2 (by decide) MotorolaBinaryXml_Opaque2byteValue_class rfl (fun _ => ⟨_, _, rfl⟩) Motorola.MotorolaBinaryXml.Opaque2byteValue.toPy_regular
    fun m H S k hk s _ => MotorolaBinaryXml_Opaque2byteValue_builds m H S k hk s (.pv .none) (.pv .none)

theorem MotorolaBinaryXml_Sintvar_constructs : Constructs "Motorola.MotorolaBinaryXml.Sintvar" ⟨Motorola.MotorolaBinaryXml.Sintvar, Motorola.MotorolaBinaryXml.Sintvar.read, Motorola.MotorolaBinaryXml.Sintvar.toPy⟩ :=
  constructs _ 2 (by decide) MotorolaBinaryXml_Sintvar_class rfl (fun _ => ⟨_, _, rfl⟩) Motorola.MotorolaBinaryXml.Sintvar.toPy_regular
    fun m H S k hk s _ => MotorolaBinaryXml_Sintvar_builds m H S k hk s (.pv .none) (.pv .none)

theorem MotorolaBinaryXml_Opaque4byteValue_constructs : Constructs "Motorola.MotorolaBinaryXml.Opaque4byteValue" ⟨Motorola.MotorolaBinaryXml.Opaque4byteValue, Motorola.MotorolaBinaryXml.Opaque4byteValue.read, Motorola.MotorolaBinaryXml.Opaque4byteValue.toPy⟩ :=
  constructs _ 2 (by decide) MotorolaBinaryXml_Opaque4byteValue_class rfl (fun _ => ⟨_, _, rfl⟩) Motorola.MotorolaBinaryXml.Opaque4byteValue.toPy_regular
    fun m H S k hk s _ => MotorolaBinaryXml_Opaque4byteValue_builds m H S k hk s (.pv .none) (.pv .none)

theorem MotorolaBinaryXml_constructs : Constructs "Motorola.MotorolaBinaryXml" ⟨Motorola.MotorolaBinaryXml, Motorola.MotorolaBinaryXml.read, Motorola.MotorolaBinaryXml.toPy⟩ :=
  constructs _ 12 (by decide) MotorolaBinaryXml_class rfl (fun _ => ⟨_, _, rfl⟩) Motorola.MotorolaBinaryXml.toPy_regular
    fun m H S k hk s _ => MotorolaBinaryXml_builds m H S k hk s (.pv .none) (.pv .none)

end ConformMotorola

theorem motorolaMotorolaBinaryXml_claims : Each Claim motorolaMotorolaBinaryXml :=
  ⟨ConformMotorola.MotorolaBinaryXml_LrrpImmediateRequestNcdt_constructs, ConformMotorola.MotorolaBinaryXml_Opaque3byteValue_constructs, ConformMotorola.MotorolaBinaryXml_LrrpElement_constructs, ConformMotorola.MotorolaBinaryXml_Sfloatvar_constructs, ConformMotorola.MotorolaBinaryXml_Opaque5byteValue_constructs, ConformMotorola.MotorolaBinaryXml_Opaque1byteValue_constructs, ConformMotorola.MotorolaBinaryXml_Uintvar_constructs, ConformMotorola.MotorolaBinaryXml_Ufloatvar_constructs, ConformMotorola.MotorolaBinaryXml_ConstantDataTableReference_constructs, ConformMotorola.MotorolaBinaryXml_MbxmlDocument_constructs, ConformMotorola.MotorolaBinaryXml_OpaqueElementValue_constructs, ConformMotorola.MotorolaBinaryXml_Opaque2byteValue_constructs, ConformMotorola.MotorolaBinaryXml_Sintvar_constructs, ConformMotorola.MotorolaBinaryXml_Opaque4byteValue_constructs, ConformMotorola.MotorolaBinaryXml_constructs, trivial⟩

namespace ConformMotorola

theorem TextMessageProtocol_TextMessage_alone : Unusable "Motorola.TextMessageProtocol.TextMessage" := by
  refine unusable 4 (by decide) TextMessageProtocol_TextMessage_class rfl fun m H S k hk s => ?_
  rw [construct_eq library _ "Motorola.TextMessageProtocol.TextMessage" _ _ TextMessageProtocol_TextMessage_class rfl rfl]
  py_run [onStream_set _ _ _ _ hk, hk, property_of _ _ _ _ TextMessageProtocol_TextMessage_class, Source.Motorola.TextMessageProtocol.TextMessage, Dmr.Hytera.RadioIp.read]
  repeat (first | (refine after_ends onlyEof_readU1 _ fun _ _ => ?_) | (refine after_ends onlyEof_readU2be _ fun _ _ => ?_))
  exact ⟨_, _, rfl, .inl rfl⟩

theorem TextMessageProtocol_TmsServiceAvailability_alone : Unusable "Motorola.TextMessageProtocol.TmsServiceAvailability" := by
  refine unusable 4 (by decide) TextMessageProtocol_TmsServiceAvailability_class rfl fun m H S k hk s => ?_
  rw [construct_eq library _ "Motorola.TextMessageProtocol.TmsServiceAvailability" _ _ TextMessageProtocol_TmsServiceAvailability_class rfl rfl]
  py_run [onStream_set _ _ _ _ hk, hk, property_of _ _ _ _ TextMessageProtocol_TmsServiceAvailability_class, Source.Motorola.TextMessageProtocol.TmsServiceAvailability, Dmr.Hytera.RadioIp.read]
  repeat (first | (refine after_ends onlyEof_readU1 _ fun _ _ => ?_) | (refine after_ends onlyEof_readU2be _ fun _ _ => ?_))
  exact ⟨_, _, rfl, .inl rfl⟩

theorem TextMessageProtocol_TextMessageHeaderSequenceAndEncoding_constructs : Constructs "Motorola.TextMessageProtocol.TextMessageHeaderSequenceAndEncoding" ⟨Motorola.TextMessageProtocol.TextMessageHeaderSequenceAndEncoding, Motorola.TextMessageProtocol.TextMessageHeaderSequenceAndEncoding.read, Motorola.TextMessageProtocol.TextMessageHeaderSequenceAndEncoding.toPy⟩ :=
  constructs _ 2 (by decide) TextMessageProtocol_TextMessageHeaderSequenceAndEncoding_class rfl (fun _ => ⟨_, _, rfl⟩) Motorola.TextMessageProtocol.TextMessageHeaderSequenceAndEncoding.toPy_regular
    fun m H S k hk s _ => TextMessageProtocol_TextMessageHeaderSequenceAndEncoding_builds m H S k hk s (.pv .none) (.pv .none)

theorem TextMessageProtocol_MessageHeaderBits_constructs : Constructs "Motorola.TextMessageProtocol.MessageHeaderBits" ⟨Motorola.TextMessageProtocol.MessageHeaderBits, Motorola.TextMessageProtocol.MessageHeaderBits.read, Motorola.TextMessageProtocol.MessageHeaderBits.toPy⟩ :=
  constructs _ 2 (by decide) TextMessageProtocol_MessageHeaderBits_class rfl (fun _ => ⟨_, _, rfl⟩) Motorola.TextMessageProtocol.MessageHeaderBits.toPy_regular
    fun m H S k hk s _ => TextMessageProtocol_MessageHeaderBits_builds m H S k hk s (.pv .none) (.pv .none)

theorem TextMessageProtocol_TmsAcknowledgement_alone : Unusable "Motorola.TextMessageProtocol.TmsAcknowledgement" := by
  refine unusable 4 (by decide) TextMessageProtocol_TmsAcknowledgement_class rfl fun m H S k hk s => ?_
  rw [construct_eq library _ "Motorola.TextMessageProtocol.TmsAcknowledgement" _ _ TextMessageProtocol_TmsAcknowledgement_class rfl rfl]
  py_run [onStream_set _ _ _ _ hk, hk, property_of _ _ _ _ TextMessageProtocol_TmsAcknowledgement_class, Source.Motorola.TextMessageProtocol.TmsAcknowledgement, Dmr.Hytera.RadioIp.read]
  repeat (first | (refine after_ends onlyEof_readU1 _ fun _ _ => ?_) | (refine after_ends onlyEof_readU2be _ fun _ _ => ?_))
  exact ⟨_, _, rfl, .inl rfl⟩

theorem TextMessageProtocol_TmsAcknowledgementHeaderSequenceNumber_constructs : Constructs "Motorola.TextMessageProtocol.TmsAcknowledgementHeaderSequenceNumber" ⟨Motorola.TextMessageProtocol.TmsAcknowledgementHeaderSequenceNumber, Motorola.TextMessageProtocol.TmsAcknowledgementHeaderSequenceNumber.read, Motorola.TextMessageProtocol.TmsAcknowledgementHeaderSequenceNumber.toPy⟩ :=
  constructs _ 2 (by decide) TextMessageProtocol_TmsAcknowledgementHeaderSequenceNumber_class rfl (fun _ => ⟨_, _, rfl⟩) Motorola.TextMessageProtocol.TmsAcknowledgementHeaderSequenceNumber.toPy_regular
    fun m H S k hk s _ => TextMessageProtocol_TmsAcknowledgementHeaderSequenceNumber_builds m H S k hk s (.pv .none) (.pv .none)

theorem TextMessageProtocol_TmsServiceAvailabilityAcknowledgement_constructs : Constructs "Motorola.TextMessageProtocol.TmsServiceAvailabilityAcknowledgement" ⟨Motorola.TextMessageProtocol.TmsServiceAvailabilityAcknowledgement, Motorola.TextMessageProtocol.TmsServiceAvailabilityAcknowledgement.read, Motorola.TextMessageProtocol.TmsServiceAvailabilityAcknowledgement.toPy⟩ :=
  constructs _ 2 (by decide) TextMessageProtocol_TmsServiceAvailabilityAcknowledgement_class rfl (fun _ => ⟨_, _, rfl⟩) Motorola.TextMessageProtocol.TmsServiceAvailabilityAcknowledgement.toPy_regular
    fun m H S k hk s _ => TextMessageProtocol_TmsServiceAvailabilityAcknowledgement_builds m H S k hk s (.pv .none) (.pv .none)

theorem TextMessageProtocol_TmsServiceAvailabilityHeader_constructs : Constructs "Motorola.TextMessageProtocol.TmsServiceAvailabilityHeader" ⟨Motorola.TextMessageProtocol.TmsServiceAvailabilityHeader, Motorola.TextMessageProtocol.TmsServiceAvailabilityHeader.read, Motorola.TextMessageProtocol.TmsServiceAvailabilityHeader.toPy⟩ :=
  constructs _ 2 (by decide) TextMessageProtocol_TmsServiceAvailabilityHeader_class rfl (fun _ => ⟨_, _, rfl⟩) Motorola.TextMessageProtocol.TmsServiceAvailabilityHeader.toPy_regular
    fun m H S k hk s _ => TextMessageProtocol_TmsServiceAvailabilityHeader_builds m H S k hk s (.pv .none) (.pv .none)

theorem TextMessageProtocol_constructs : Constructs "Motorola.TextMessageProtocol" ⟨Motorola.TextMessageProtocol, Motorola.TextMessageProtocol.read, Motorola.TextMessageProtocol.toPy⟩ :=
  constructs _ 6 (by decide) TextMessageProtocol_class rfl (fun _ => ⟨_, _, rfl⟩) Motorola.TextMessageProtocol.toPy_regular
    fun m H S k hk s _ => TextMessageProtocol_builds m H S k hk s

end ConformMotorola

theorem motorolaTextMessageProtocol_claims : Each Claim motorolaTextMessageProtocol :=
  ⟨ConformMotorola.TextMessageProtocol_TextMessage_alone, ConformMotorola.TextMessageProtocol_TmsServiceAvailability_alone, ConformMotorola.TextMessageProtocol_TextMessageHeaderSequenceAndEncoding_constructs, ConformMotorola.TextMessageProtocol_MessageHeaderBits_constructs, ConformMotorola.TextMessageProtocol_TmsAcknowledgement_alone, ConformMotorola.TextMessageProtocol_TmsAcknowledgementHeaderSequenceNumber_constructs, ConformMotorola.TextMessageProtocol_TmsServiceAvailabilityAcknowledgement_constructs, ConformMotorola.TextMessageProtocol_TmsServiceAvailabilityHeader_constructs, ConformMotorola.TextMessageProtocol_constructs, trivial⟩

theorem table_claims : ∀ row ∈ table, Claim row := by
  intro row h
  obtain ⟨l, hl, h⟩ := List.mem_flatten.1 h
  have : Each (fun l => Each Claim l) [hyteraDataDeliveryStates, hyteraDataTransmitProtocol, hyteraDatetimestring, hyteraGpsdata, hyteraHyteraDmrApplicationProtocol, hyteraHyteraRadioNetworkProtocol, hyteraHyteraSimpleTransportReliabilityProtocol, hyteraIntervalstring, hyteraIpSiteConnectHeartbeat, hyteraIpSiteConnectProtocol, hyteraLocationProtocol, hyteraRadioControlProtocol, hyteraRadioId, hyteraRadioIp, hyteraRadioRegistrationService, hyteraRealTimeTransportProtocol, hyteraTelemetryProtocol, hyteraTextMessageProtocol, etsiDmrCsbk, etsiDmrData, etsiDmrDataHeader, etsiDmrIpUdp, etsiFullLinkControl, homebrewHomebrew2015, homebrewMmdvm2020, motorolaAutomaticRegistrationService, motorolaMotorolaBinaryXml, motorolaTextMessageProtocol] :=
    ⟨hyteraDataDeliveryStates_claims, hyteraDataTransmitProtocol_claims, hyteraDatetimestring_claims, hyteraGpsdata_claims, hyteraHyteraDmrApplicationProtocol_claims, hyteraHyteraRadioNetworkProtocol_claims, hyteraHyteraSimpleTransportReliabilityProtocol_claims, hyteraIntervalstring_claims, hyteraIpSiteConnectHeartbeat_claims, hyteraIpSiteConnectProtocol_claims, hyteraLocationProtocol_claims, hyteraRadioControlProtocol_claims, hyteraRadioId_claims, hyteraRadioIp_claims, hyteraRadioRegistrationService_claims, hyteraRealTimeTransportProtocol_claims, hyteraTelemetryProtocol_claims, hyteraTextMessageProtocol_claims, etsiDmrCsbk_claims, etsiDmrData_claims, etsiDmrDataHeader_claims, etsiDmrIpUdp_claims, etsiFullLinkControl_claims, homebrewHomebrew2015_claims, homebrewMmdvm2020_claims, motorolaAutomaticRegistrationService_claims, motorolaMotorolaBinaryXml_claims, motorolaTextMessageProtocol_claims, trivial⟩
  exact (this.mem l hl).mem row h

end Dmr.Py
