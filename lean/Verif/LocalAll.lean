import Verif.Local
import Verif.Model.Etsi.DmrCsbk
import Verif.Model.Etsi.DmrData
import Verif.Model.Etsi.DmrDataHeader
import Verif.Model.Etsi.DmrIpUdp
import Verif.Model.Etsi.FullLinkControl
import Verif.Model.Homebrew.Homebrew2015
import Verif.Model.Homebrew.Mmdvm2020
import Verif.Model.Hytera.DataDeliveryStates
import Verif.Model.Hytera.DataTransmitProtocol
import Verif.Model.Hytera.Datetimestring
import Verif.Model.Hytera.Gpsdata
import Verif.Model.Hytera.HyteraDmrApplicationProtocol
import Verif.Model.Hytera.HyteraRadioNetworkProtocol
import Verif.Model.Hytera.HyteraSimpleTransportReliabilityProtocol
import Verif.Model.Hytera.Intervalstring
import Verif.Model.Hytera.IpSiteConnectHeartbeat
import Verif.Model.Hytera.IpSiteConnectProtocol
import Verif.Model.Hytera.LocationProtocol
import Verif.Model.Hytera.RadioControlProtocol
import Verif.Model.Hytera.RadioId
import Verif.Model.Hytera.RadioIp
import Verif.Model.Hytera.RadioRegistrationService
import Verif.Model.Hytera.RealTimeTransportProtocol
import Verif.Model.Hytera.TelemetryProtocol
import Verif.Model.Hytera.TextMessageProtocol
import Verif.Model.Motorola.AutomaticRegistrationService
import Verif.Model.Motorola.MotorolaBinaryXml
import Verif.Model.Motorola.MotorolaUtils
import Verif.Model.Motorola.TextMessageProtocol
/-
`Local` for every decoder that does not look at the position, size or end of the stream, nor contains one that does
(generated by tools/mklocal.py). Not local: Etsi.DmrDataHeader.DataHeaderUndefined.read, Etsi.DmrDataHeader.readDataBody, Etsi.DmrIpUdp.UdpIpv4CompressedHeader.read, Etsi.FullLinkControl.read, Homebrew.Homebrew2015.TypeDmrData.read, Homebrew.Homebrew2015.TypeMasterRepeaterAck.read, Homebrew.Homebrew2015.TypeRepeaterConfiguration.read, Homebrew.Homebrew2015.TypeRepeaterConfigurationOrClosing.read, Homebrew.Homebrew2015.TypeRepeaterConfigurationOrClosing.readData, Homebrew.Homebrew2015.TypeRepeaterOptions.read, Homebrew.Homebrew2015.computeFifthLetter, Homebrew.Homebrew2015.read, Homebrew.Homebrew2015.readCommandData, Homebrew.Mmdvm2020.TypeDmrData.read, Homebrew.Mmdvm2020.TypeRepeaterConfiguration.read, Homebrew.Mmdvm2020.TypeRepeaterConfigurationOrClosing.read, Homebrew.Mmdvm2020.TypeRepeaterConfigurationOrClosing.readData, Homebrew.Mmdvm2020.TypeRepeaterOptions.read, Homebrew.Mmdvm2020.TypeUnknown.read, Homebrew.Mmdvm2020.computeFifthLetter, Homebrew.Mmdvm2020.read, Homebrew.Mmdvm2020.readCommandData, Hytera.HyteraDmrApplicationProtocol.UndefinedProtocol.read, Hytera.HyteraDmrApplicationProtocol.read, Hytera.HyteraDmrApplicationProtocol.readData, Hytera.HyteraRadioNetworkProtocol.read, Hytera.HyteraSimpleTransportReliabilityProtocol.read, Hytera.IpSiteConnectHeartbeat.Unknown.read, Hytera.IpSiteConnectHeartbeat.read, Hytera.IpSiteConnectHeartbeat.readData, Hytera.IpSiteConnectProtocol.read, Hytera.LocationProtocol.computeOpcode, Hytera.RealTimeTransportProtocol.read, Hytera.TelemetryProtocol.computeSpecificService, Hytera.TelemetryProtocol.read, Motorola.AutomaticRegistrationService.read, Motorola.MotorolaBinaryXml.ConstantDataTableReference.read, Motorola.MotorolaBinaryXml.LrrpElement.read, Motorola.MotorolaBinaryXml.LrrpElement.readLrrpElementData, Motorola.MotorolaBinaryXml.LrrpImmediateRequestNcdt.read, Motorola.MotorolaBinaryXml.MbxmlDocument.read, Motorola.MotorolaBinaryXml.MbxmlDocument.readDocumentData, Motorola.MotorolaBinaryXml.Sfloatvar.read, Motorola.MotorolaBinaryXml.Sintvar.read, Motorola.MotorolaBinaryXml.Ufloatvar.read, Motorola.MotorolaBinaryXml.Uintvar.read, Motorola.MotorolaBinaryXml.read, Motorola.TextMessageProtocol.TextMessage.read, Motorola.TextMessageProtocol.read, Motorola.TextMessageProtocol.readPduContent.
-/

set_option linter.unusedVariables false

namespace Dmr

variable {G : Bytes → Bytes → Prop}

theorem Etsi.DmrCsbk.NegativeAckResponseData.read_local : Local G (Etsi.DmrCsbk.NegativeAckResponseData.read) := by
  unfold Etsi.DmrCsbk.NegativeAckResponseData.read
  local_reader []

theorem Etsi.DmrCsbk.ServiceOptions.read_local : Local G (Etsi.DmrCsbk.ServiceOptions.read) := by
  unfold Etsi.DmrCsbk.ServiceOptions.read
  local_reader []

theorem Etsi.DmrCsbk.UnitToUnitVoiceRequestData.read_local : Local G (Etsi.DmrCsbk.UnitToUnitVoiceRequestData.read) := by
  unfold Etsi.DmrCsbk.UnitToUnitVoiceRequestData.read
  local_reader [Etsi.DmrCsbk.ServiceOptions.read_local]

theorem Etsi.DmrCsbk.PreambleData.read_local : Local G (Etsi.DmrCsbk.PreambleData.read) := by
  unfold Etsi.DmrCsbk.PreambleData.read
  local_reader []

theorem Etsi.DmrCsbk.ChannelTimingData.read_local : Local G (Etsi.DmrCsbk.ChannelTimingData.read) := by
  unfold Etsi.DmrCsbk.ChannelTimingData.read
  local_reader []

theorem Etsi.DmrCsbk.BsOutboundActivationData.read_local : Local G (Etsi.DmrCsbk.BsOutboundActivationData.read) := by
  unfold Etsi.DmrCsbk.BsOutboundActivationData.read
  local_reader []

theorem Etsi.DmrCsbk.UnitToUnitVoiceAnswerData.read_local : Local G (Etsi.DmrCsbk.UnitToUnitVoiceAnswerData.read) := by
  unfold Etsi.DmrCsbk.UnitToUnitVoiceAnswerData.read
  local_reader [Etsi.DmrCsbk.ServiceOptions.read_local]

theorem Etsi.DmrCsbk.readCsbkData_local (on : EnumVal DmrCsbk.CsbkoTypes) : Local G (Etsi.DmrCsbk.readCsbkData on) := by
  unfold Etsi.DmrCsbk.readCsbkData
  local_reader [Etsi.DmrCsbk.UnitToUnitVoiceAnswerData.read_local, Etsi.DmrCsbk.PreambleData.read_local, Etsi.DmrCsbk.ChannelTimingData.read_local, Etsi.DmrCsbk.UnitToUnitVoiceRequestData.read_local, Etsi.DmrCsbk.BsOutboundActivationData.read_local, Etsi.DmrCsbk.NegativeAckResponseData.read_local]

theorem Etsi.DmrCsbk.read_local : Local G (Etsi.DmrCsbk.read) := by
  unfold Etsi.DmrCsbk.read
  local_reader [Etsi.DmrCsbk.readCsbkData_local _]

theorem Etsi.DmrData.Rate1LastBlockUnconfirmed.read_local : Local G (Etsi.DmrData.Rate1LastBlockUnconfirmed.read) := by
  unfold Etsi.DmrData.Rate1LastBlockUnconfirmed.read
  local_reader []

theorem Etsi.DmrData.Rate12LastBlockConfirmed.read_local : Local G (Etsi.DmrData.Rate12LastBlockConfirmed.read) := by
  unfold Etsi.DmrData.Rate12LastBlockConfirmed.read
  local_reader []

theorem Etsi.DmrData.Rate12Confirmed.read_local : Local G (Etsi.DmrData.Rate12Confirmed.read) := by
  unfold Etsi.DmrData.Rate12Confirmed.read
  local_reader []

theorem Etsi.DmrData.Rate34LastBlockUnconfirmed.read_local : Local G (Etsi.DmrData.Rate34LastBlockUnconfirmed.read) := by
  unfold Etsi.DmrData.Rate34LastBlockUnconfirmed.read
  local_reader []

theorem Etsi.DmrData.Rate1LastBlockConfirmed.read_local : Local G (Etsi.DmrData.Rate1LastBlockConfirmed.read) := by
  unfold Etsi.DmrData.Rate1LastBlockConfirmed.read
  local_reader []

theorem Etsi.DmrData.Rate1Unconfirmed.read_local : Local G (Etsi.DmrData.Rate1Unconfirmed.read) := by
  unfold Etsi.DmrData.Rate1Unconfirmed.read
  local_reader []

theorem Etsi.DmrData.UdtLastBlock.read_local : Local G (Etsi.DmrData.UdtLastBlock.read) := by
  unfold Etsi.DmrData.UdtLastBlock.read
  local_reader []

theorem Etsi.DmrData.Rate34Confirmed.read_local : Local G (Etsi.DmrData.Rate34Confirmed.read) := by
  unfold Etsi.DmrData.Rate34Confirmed.read
  local_reader []

theorem Etsi.DmrData.Rate34LastBlockConfirmed.read_local : Local G (Etsi.DmrData.Rate34LastBlockConfirmed.read) := by
  unfold Etsi.DmrData.Rate34LastBlockConfirmed.read
  local_reader []

theorem Etsi.DmrData.Rate34Unconfirmed.read_local : Local G (Etsi.DmrData.Rate34Unconfirmed.read) := by
  unfold Etsi.DmrData.Rate34Unconfirmed.read
  local_reader []

theorem Etsi.DmrData.Rate12LastBlockUnconfirmed.read_local : Local G (Etsi.DmrData.Rate12LastBlockUnconfirmed.read) := by
  unfold Etsi.DmrData.Rate12LastBlockUnconfirmed.read
  local_reader []

theorem Etsi.DmrData.Rate1Confirmed.read_local : Local G (Etsi.DmrData.Rate1Confirmed.read) := by
  unfold Etsi.DmrData.Rate1Confirmed.read
  local_reader []

theorem Etsi.DmrData.Rate12Unconfirmed.read_local : Local G (Etsi.DmrData.Rate12Unconfirmed.read) := by
  unfold Etsi.DmrData.Rate12Unconfirmed.read
  local_reader []

theorem Etsi.DmrData.read_local : Local G (Etsi.DmrData.read) := by
  unfold Etsi.DmrData.read
  local_reader []

theorem Etsi.DmrDataHeader.DataHeaderShortRaw.read_local : Local G (Etsi.DmrDataHeader.DataHeaderShortRaw.read) := by
  unfold Etsi.DmrDataHeader.DataHeaderShortRaw.read
  local_reader []

theorem Etsi.DmrDataHeader.DataHeaderProprietary.read_local : Local G (Etsi.DmrDataHeader.DataHeaderProprietary.read) := by
  unfold Etsi.DmrDataHeader.DataHeaderProprietary.read
  local_reader []

theorem Etsi.DmrDataHeader.DataHeaderShortStatusPrecoded.read_local : Local G (Etsi.DmrDataHeader.DataHeaderShortStatusPrecoded.read) := by
  unfold Etsi.DmrDataHeader.DataHeaderShortStatusPrecoded.read
  local_reader []

theorem Etsi.DmrDataHeader.DataHeaderResponse.read_local : Local G (Etsi.DmrDataHeader.DataHeaderResponse.read) := by
  unfold Etsi.DmrDataHeader.DataHeaderResponse.read
  local_reader []

theorem Etsi.DmrDataHeader.DataHeaderConfirmed.read_local : Local G (Etsi.DmrDataHeader.DataHeaderConfirmed.read) := by
  unfold Etsi.DmrDataHeader.DataHeaderConfirmed.read
  local_reader []

theorem Etsi.DmrDataHeader.DataHeaderUnconfirmed.read_local : Local G (Etsi.DmrDataHeader.DataHeaderUnconfirmed.read) := by
  unfold Etsi.DmrDataHeader.DataHeaderUnconfirmed.read
  local_reader []

theorem Etsi.DmrDataHeader.DataHeaderShortDefined.read_local : Local G (Etsi.DmrDataHeader.DataHeaderShortDefined.read) := by
  unfold Etsi.DmrDataHeader.DataHeaderShortDefined.read
  local_reader []

theorem Etsi.DmrDataHeader.DataHeaderUdt.read_local : Local G (Etsi.DmrDataHeader.DataHeaderUdt.read) := by
  unfold Etsi.DmrDataHeader.DataHeaderUdt.read
  local_reader []

theorem Etsi.DmrDataHeader.read_local : Local G (Etsi.DmrDataHeader.read) := by
  unfold Etsi.DmrDataHeader.read
  local_reader []

theorem Etsi.DmrIpUdp.read_local : Local G (Etsi.DmrIpUdp.read) := by
  unfold Etsi.DmrIpUdp.read
  local_reader []

theorem Etsi.FullLinkControl.GpsInfoLcPdu.read_local : Local G (Etsi.FullLinkControl.GpsInfoLcPdu.read) := by
  unfold Etsi.FullLinkControl.GpsInfoLcPdu.read
  local_reader []

theorem Etsi.FullLinkControl.GroupVoiceChannelUser.read_local : Local G (Etsi.FullLinkControl.GroupVoiceChannelUser.read) := by
  unfold Etsi.FullLinkControl.GroupVoiceChannelUser.read
  local_reader []

theorem Etsi.FullLinkControl.UnitToUnitVoiceChannelUser.read_local : Local G (Etsi.FullLinkControl.UnitToUnitVoiceChannelUser.read) := by
  unfold Etsi.FullLinkControl.UnitToUnitVoiceChannelUser.read
  local_reader []

theorem Etsi.FullLinkControl.TalkerAliasHeader.read_local : Local G (Etsi.FullLinkControl.TalkerAliasHeader.read) := by
  unfold Etsi.FullLinkControl.TalkerAliasHeader.read
  local_reader []

theorem Etsi.FullLinkControl.TalkerAliasContinuation.read_local : Local G (Etsi.FullLinkControl.TalkerAliasContinuation.read) := by
  unfold Etsi.FullLinkControl.TalkerAliasContinuation.read
  local_reader []

theorem Etsi.FullLinkControl.readSpecificData_local (on : EnumVal FullLinkControl.Flcos) : Local G (Etsi.FullLinkControl.readSpecificData on) := by
  unfold Etsi.FullLinkControl.readSpecificData
  local_reader [Etsi.FullLinkControl.TalkerAliasHeader.read_local, Etsi.FullLinkControl.UnitToUnitVoiceChannelUser.read_local, Etsi.FullLinkControl.GroupVoiceChannelUser.read_local, Etsi.FullLinkControl.TalkerAliasContinuation.read_local, Etsi.FullLinkControl.GpsInfoLcPdu.read_local]

theorem Homebrew.Homebrew2015.TypeMasterPing.read_local : Local G (Homebrew.Homebrew2015.TypeMasterPing.read) := by
  unfold Homebrew.Homebrew2015.TypeMasterPing.read
  local_reader []

theorem Homebrew.Homebrew2015.TypeRepeaterPong.read_local : Local G (Homebrew.Homebrew2015.TypeRepeaterPong.read) := by
  unfold Homebrew.Homebrew2015.TypeRepeaterPong.read
  local_reader []

theorem Homebrew.Homebrew2015.TypeRepeaterClosing.read_local : Local G (Homebrew.Homebrew2015.TypeRepeaterClosing.read) := by
  unfold Homebrew.Homebrew2015.TypeRepeaterClosing.read
  local_reader []

theorem Homebrew.Homebrew2015.TypeRepeaterLoginResponse.read_local : Local G (Homebrew.Homebrew2015.TypeRepeaterLoginResponse.read) := by
  unfold Homebrew.Homebrew2015.TypeRepeaterLoginResponse.read
  local_reader []

theorem Homebrew.Homebrew2015.TypeRepeaterLoginRequest.read_local : Local G (Homebrew.Homebrew2015.TypeRepeaterLoginRequest.read) := by
  unfold Homebrew.Homebrew2015.TypeRepeaterLoginRequest.read
  local_reader []

theorem Homebrew.Homebrew2015.TypeMasterNotAccept.read_local : Local G (Homebrew.Homebrew2015.TypeMasterNotAccept.read) := by
  unfold Homebrew.Homebrew2015.TypeMasterNotAccept.read
  local_reader []

theorem Homebrew.Homebrew2015.TypeMasterClosing.read_local : Local G (Homebrew.Homebrew2015.TypeMasterClosing.read) := by
  unfold Homebrew.Homebrew2015.TypeMasterClosing.read
  local_reader []

theorem Homebrew.Mmdvm2020.TypeMasterPong.read_local : Local G (Homebrew.Mmdvm2020.TypeMasterPong.read) := by
  unfold Homebrew.Mmdvm2020.TypeMasterPong.read
  local_reader []

theorem Homebrew.Mmdvm2020.TypeRadioPosition.read_local : Local G (Homebrew.Mmdvm2020.TypeRadioPosition.read) := by
  unfold Homebrew.Mmdvm2020.TypeRadioPosition.read
  local_reader []

theorem Homebrew.Mmdvm2020.TypeTalkerAlias.read_local : Local G (Homebrew.Mmdvm2020.TypeTalkerAlias.read) := by
  unfold Homebrew.Mmdvm2020.TypeTalkerAlias.read
  local_reader []

theorem Homebrew.Mmdvm2020.TypeRepeaterClosing.read_local : Local G (Homebrew.Mmdvm2020.TypeRepeaterClosing.read) := by
  unfold Homebrew.Mmdvm2020.TypeRepeaterClosing.read
  local_reader []

theorem Homebrew.Mmdvm2020.TypeRepeaterLoginResponse.read_local : Local G (Homebrew.Mmdvm2020.TypeRepeaterLoginResponse.read) := by
  unfold Homebrew.Mmdvm2020.TypeRepeaterLoginResponse.read
  local_reader []

theorem Homebrew.Mmdvm2020.TypeRepeaterLoginRequest.read_local : Local G (Homebrew.Mmdvm2020.TypeRepeaterLoginRequest.read) := by
  unfold Homebrew.Mmdvm2020.TypeRepeaterLoginRequest.read
  local_reader []

theorem Homebrew.Mmdvm2020.TypeMasterNotAccept.read_local : Local G (Homebrew.Mmdvm2020.TypeMasterNotAccept.read) := by
  unfold Homebrew.Mmdvm2020.TypeMasterNotAccept.read
  local_reader []

theorem Homebrew.Mmdvm2020.TypeMasterRepeaterAck.read_local : Local G (Homebrew.Mmdvm2020.TypeMasterRepeaterAck.read) := by
  unfold Homebrew.Mmdvm2020.TypeMasterRepeaterAck.read
  local_reader []

theorem Homebrew.Mmdvm2020.TypeMasterClosing.read_local : Local G (Homebrew.Mmdvm2020.TypeMasterClosing.read) := by
  unfold Homebrew.Mmdvm2020.TypeMasterClosing.read
  local_reader []

theorem Homebrew.Mmdvm2020.TypeRepeaterBeacon.read_local : Local G (Homebrew.Mmdvm2020.TypeRepeaterBeacon.read) := by
  unfold Homebrew.Mmdvm2020.TypeRepeaterBeacon.read
  local_reader []

theorem Homebrew.Mmdvm2020.TypeRepeaterPing.read_local : Local G (Homebrew.Mmdvm2020.TypeRepeaterPing.read) := by
  unfold Homebrew.Mmdvm2020.TypeRepeaterPing.read
  local_reader []

theorem Hytera.RadioIp.read_local : Local G (Hytera.RadioIp.read) := by
  unfold Hytera.RadioIp.read
  local_reader []

theorem Hytera.DataDeliveryStates.read_local : Local G (Hytera.DataDeliveryStates.read) := by
  unfold Hytera.DataDeliveryStates.read
  local_reader [Hytera.RadioIp.read_local]

theorem Hytera.DataTransmitProtocol.LastDataSlice.read_local : Local G (Hytera.DataTransmitProtocol.LastDataSlice.read) := by
  unfold Hytera.DataTransmitProtocol.LastDataSlice.read
  local_reader [Hytera.RadioIp.read_local]

theorem Hytera.DataTransmitProtocol.DtpRequest.read_local (parent_message_length : Nat) : Local G (Hytera.DataTransmitProtocol.DtpRequest.read parent_message_length) := by
  unfold Hytera.DataTransmitProtocol.DtpRequest.read
  local_reader [Hytera.RadioIp.read_local]

theorem Hytera.DataTransmitProtocol.DataSliceAnswer.read_local : Local G (Hytera.DataTransmitProtocol.DataSliceAnswer.read) := by
  unfold Hytera.DataTransmitProtocol.DataSliceAnswer.read
  local_reader [Hytera.RadioIp.read_local]

theorem Hytera.DataTransmitProtocol.DataSliceTransmit.read_local (parent_message_length : Nat) : Local G (Hytera.DataTransmitProtocol.DataSliceTransmit.read parent_message_length) := by
  unfold Hytera.DataTransmitProtocol.DataSliceTransmit.read
  local_reader [Hytera.RadioIp.read_local]

theorem Hytera.DataTransmitProtocol.LastDataSliceAnswer.read_local : Local G (Hytera.DataTransmitProtocol.LastDataSliceAnswer.read) := by
  unfold Hytera.DataTransmitProtocol.LastDataSliceAnswer.read
  local_reader [Hytera.RadioIp.read_local]

theorem Hytera.DataTransmitProtocol.DtpAnswer.read_local : Local G (Hytera.DataTransmitProtocol.DtpAnswer.read) := by
  unfold Hytera.DataTransmitProtocol.DtpAnswer.read
  local_reader [Hytera.RadioIp.read_local]

theorem Hytera.DataTransmitProtocol.readData_local (on : EnumVal DataTransmitProtocol.ServiceSpecificTypes) (message_length : Nat) : Local G (Hytera.DataTransmitProtocol.readData on message_length) := by
  unfold Hytera.DataTransmitProtocol.readData
  local_reader [Hytera.DataTransmitProtocol.DtpRequest.read_local _, Hytera.DataTransmitProtocol.DataSliceTransmit.read_local _, Hytera.DataTransmitProtocol.DataSliceAnswer.read_local, Hytera.DataTransmitProtocol.LastDataSliceAnswer.read_local, Hytera.DataTransmitProtocol.DtpAnswer.read_local, Hytera.DataTransmitProtocol.LastDataSlice.read_local]

theorem Hytera.DataTransmitProtocol.read_local : Local G (Hytera.DataTransmitProtocol.read) := by
  unfold Hytera.DataTransmitProtocol.read
  local_reader [Hytera.DataTransmitProtocol.readData_local _ _]

theorem Hytera.Datetimestring.read_local : Local G (Hytera.Datetimestring.read) := by
  unfold Hytera.Datetimestring.read
  local_reader []

theorem Hytera.Gpsdata.read_local : Local G (Hytera.Gpsdata.read) := by
  unfold Hytera.Gpsdata.read
  local_reader []

theorem Hytera.HyteraSimpleTransportReliabilityProtocol.Option.read_local : Local G (Hytera.HyteraSimpleTransportReliabilityProtocol.Option.read) := by
  unfold Hytera.HyteraSimpleTransportReliabilityProtocol.Option.read
  local_reader []

theorem Hytera.Intervalstring.read_local : Local G (Hytera.Intervalstring.read) := by
  unfold Hytera.Intervalstring.read
  local_reader []

theorem Hytera.IpSiteConnectHeartbeat.Keepalive.read_local : Local G (Hytera.IpSiteConnectHeartbeat.Keepalive.read) := by
  unfold Hytera.IpSiteConnectHeartbeat.Keepalive.read
  local_reader []

theorem Hytera.IpSiteConnectHeartbeat.PingPong.read_local : Local G (Hytera.IpSiteConnectHeartbeat.PingPong.read) := by
  unfold Hytera.IpSiteConnectHeartbeat.PingPong.read
  local_reader []

theorem Hytera.LocationProtocol.TriggeredReportStopAnswer.read_local : Local G (Hytera.LocationProtocol.TriggeredReportStopAnswer.read) := by
  unfold Hytera.LocationProtocol.TriggeredReportStopAnswer.read
  local_reader [Hytera.RadioIp.read_local]

theorem Hytera.LocationProtocol.ConditionReportRequest.read_local : Local G (Hytera.LocationProtocol.ConditionReportRequest.read) := by
  unfold Hytera.LocationProtocol.ConditionReportRequest.read
  local_reader [Hytera.RadioIp.read_local, Hytera.Datetimestring.read_local, Hytera.Intervalstring.read_local]

theorem Hytera.LocationProtocol.QuickGpsPayload.read_local : Local G (Hytera.LocationProtocol.QuickGpsPayload.read) := by
  unfold Hytera.LocationProtocol.QuickGpsPayload.read
  local_reader [Hytera.Datetimestring.read_local, Hytera.Intervalstring.read_local]

theorem Hytera.LocationProtocol.ConditionQuickGpsRequest.read_local : Local G (Hytera.LocationProtocol.ConditionQuickGpsRequest.read) := by
  unfold Hytera.LocationProtocol.ConditionQuickGpsRequest.read
  local_reader [Hytera.RadioIp.read_local, Hytera.LocationProtocol.QuickGpsPayload.read_local]

theorem Hytera.LocationProtocol.ConditionReport.read_local : Local G (Hytera.LocationProtocol.ConditionReport.read) := by
  unfold Hytera.LocationProtocol.ConditionReport.read
  local_reader [Hytera.RadioIp.read_local, Hytera.Gpsdata.read_local]

theorem Hytera.LocationProtocol.EmergencyReport.read_local : Local G (Hytera.LocationProtocol.EmergencyReport.read) := by
  unfold Hytera.LocationProtocol.EmergencyReport.read
  local_reader [Hytera.RadioIp.read_local, Hytera.Gpsdata.read_local]

theorem Hytera.LocationProtocol.TriggeredReportAnswer.read_local : Local G (Hytera.LocationProtocol.TriggeredReportAnswer.read) := by
  unfold Hytera.LocationProtocol.TriggeredReportAnswer.read
  local_reader [Hytera.RadioIp.read_local]

theorem Hytera.LocationProtocol.StandardAnswerWithRssi.read_local : Local G (Hytera.LocationProtocol.StandardAnswerWithRssi.read) := by
  unfold Hytera.LocationProtocol.StandardAnswerWithRssi.read
  local_reader [Hytera.RadioIp.read_local, Hytera.Gpsdata.read_local]

theorem Hytera.LocationProtocol.StandardRequest.read_local : Local G (Hytera.LocationProtocol.StandardRequest.read) := by
  unfold Hytera.LocationProtocol.StandardRequest.read
  local_reader [Hytera.RadioIp.read_local]

theorem Hytera.LocationProtocol.TriggeredReportRequest.read_local : Local G (Hytera.LocationProtocol.TriggeredReportRequest.read) := by
  unfold Hytera.LocationProtocol.TriggeredReportRequest.read
  local_reader [Hytera.RadioIp.read_local, Hytera.Datetimestring.read_local, Hytera.Intervalstring.read_local]

theorem Hytera.LocationProtocol.StandardAnswer.read_local : Local G (Hytera.LocationProtocol.StandardAnswer.read) := by
  unfold Hytera.LocationProtocol.StandardAnswer.read
  local_reader [Hytera.RadioIp.read_local, Hytera.Gpsdata.read_local]

theorem Hytera.LocationProtocol.ConditionReportAnswer.read_local : Local G (Hytera.LocationProtocol.ConditionReportAnswer.read) := by
  unfold Hytera.LocationProtocol.ConditionReportAnswer.read
  local_reader [Hytera.RadioIp.read_local]

theorem Hytera.LocationProtocol.EmergencyReportStopRequest.read_local : Local G (Hytera.LocationProtocol.EmergencyReportStopRequest.read) := by
  unfold Hytera.LocationProtocol.EmergencyReportStopRequest.read
  local_reader [Hytera.RadioIp.read_local]

theorem Hytera.LocationProtocol.ConditionQuickGpsAnswer.read_local : Local G (Hytera.LocationProtocol.ConditionQuickGpsAnswer.read) := by
  unfold Hytera.LocationProtocol.ConditionQuickGpsAnswer.read
  local_reader [Hytera.RadioIp.read_local]

theorem Hytera.LocationProtocol.TriggeredReport.read_local : Local G (Hytera.LocationProtocol.TriggeredReport.read) := by
  unfold Hytera.LocationProtocol.TriggeredReport.read
  local_reader [Hytera.RadioIp.read_local, Hytera.Intervalstring.read_local, Hytera.Gpsdata.read_local]

theorem Hytera.LocationProtocol.ConditionReportWithRssi.read_local : Local G (Hytera.LocationProtocol.ConditionReportWithRssi.read) := by
  unfold Hytera.LocationProtocol.ConditionReportWithRssi.read
  local_reader [Hytera.RadioIp.read_local, Hytera.Gpsdata.read_local]

theorem Hytera.LocationProtocol.EmergencyReportStopAnswer.read_local : Local G (Hytera.LocationProtocol.EmergencyReportStopAnswer.read) := by
  unfold Hytera.LocationProtocol.EmergencyReportStopAnswer.read
  local_reader [Hytera.RadioIp.read_local]

theorem Hytera.LocationProtocol.TriggeredReportStopRequest.read_local : Local G (Hytera.LocationProtocol.TriggeredReportStopRequest.read) := by
  unfold Hytera.LocationProtocol.TriggeredReportStopRequest.read
  local_reader [Hytera.RadioIp.read_local]

theorem Hytera.LocationProtocol.readData_local (on : EnumVal LocationProtocol.LpSpecificTypes) : Local G (Hytera.LocationProtocol.readData on) := by
  unfold Hytera.LocationProtocol.readData
  local_reader [Hytera.LocationProtocol.TriggeredReportAnswer.read_local, Hytera.LocationProtocol.EmergencyReportStopRequest.read_local, Hytera.LocationProtocol.ConditionQuickGpsRequest.read_local, Hytera.LocationProtocol.ConditionReport.read_local, Hytera.LocationProtocol.EmergencyReportStopAnswer.read_local, Hytera.LocationProtocol.ConditionReportAnswer.read_local, Hytera.LocationProtocol.StandardAnswer.read_local, Hytera.LocationProtocol.StandardRequest.read_local, Hytera.LocationProtocol.TriggeredReport.read_local, Hytera.LocationProtocol.TriggeredReportStopAnswer.read_local, Hytera.LocationProtocol.StandardAnswerWithRssi.read_local, Hytera.LocationProtocol.ConditionReportWithRssi.read_local, Hytera.LocationProtocol.TriggeredReportStopRequest.read_local, Hytera.LocationProtocol.EmergencyReport.read_local, Hytera.LocationProtocol.ConditionReportRequest.read_local, Hytera.LocationProtocol.TriggeredReportRequest.read_local, Hytera.LocationProtocol.ConditionQuickGpsAnswer.read_local]

theorem Hytera.LocationProtocol.read_local : Local G (Hytera.LocationProtocol.read) := by
  unfold Hytera.LocationProtocol.read
  local_reader [Hytera.LocationProtocol.readData_local _]

theorem Hytera.RadioControlProtocol.BroadcastStatusConfigurationReply.read_local : Local G (Hytera.RadioControlProtocol.BroadcastStatusConfigurationReply.read) := by
  unfold Hytera.RadioControlProtocol.BroadcastStatusConfigurationReply.read
  local_reader []

theorem Hytera.RadioControlProtocol.BroadcastConfiguration.read_local : Local G (Hytera.RadioControlProtocol.BroadcastConfiguration.read) := by
  unfold Hytera.RadioControlProtocol.BroadcastConfiguration.read
  local_reader []

theorem Hytera.RadioControlProtocol.BroadcastStatusConfigurationRequest.read_local : Local G (Hytera.RadioControlProtocol.BroadcastStatusConfigurationRequest.read) := by
  unfold Hytera.RadioControlProtocol.BroadcastStatusConfigurationRequest.read
  local_reader [Hytera.RadioControlProtocol.BroadcastConfiguration.read_local]

theorem Hytera.RadioControlProtocol.RadioIdentificationReply.read_local (parent_message_length : Nat) : Local G (Hytera.RadioControlProtocol.RadioIdentificationReply.read parent_message_length) := by
  unfold Hytera.RadioControlProtocol.RadioIdentificationReply.read
  local_reader []

theorem Hytera.RadioControlProtocol.GenericData.read_local (parent_message_length : Nat) : Local G (Hytera.RadioControlProtocol.GenericData.read parent_message_length) := by
  unfold Hytera.RadioControlProtocol.GenericData.read
  local_reader []

theorem Hytera.RadioControlProtocol.CallRequest.read_local : Local G (Hytera.RadioControlProtocol.CallRequest.read) := by
  unfold Hytera.RadioControlProtocol.CallRequest.read
  local_reader []

theorem Hytera.RadioControlProtocol.RemoveRadioReply.read_local : Local G (Hytera.RadioControlProtocol.RemoveRadioReply.read) := by
  unfold Hytera.RadioControlProtocol.RemoveRadioReply.read
  local_reader []

theorem Hytera.RadioControlProtocol.RemoveRadioRequest.read_local : Local G (Hytera.RadioControlProtocol.RemoveRadioRequest.read) := by
  unfold Hytera.RadioControlProtocol.RemoveRadioRequest.read
  local_reader []

theorem Hytera.RadioControlProtocol.CallReply.read_local : Local G (Hytera.RadioControlProtocol.CallReply.read) := by
  unfold Hytera.RadioControlProtocol.CallReply.read
  local_reader []

theorem Hytera.RadioControlProtocol.readData_local (on : EnumVal RadioControlProtocol.ServiceTypes) (message_length : Nat) : Local G (Hytera.RadioControlProtocol.readData on message_length) := by
  unfold Hytera.RadioControlProtocol.readData
  local_reader [Hytera.RadioControlProtocol.CallReply.read_local, Hytera.RadioControlProtocol.RadioIdentificationReply.read_local _, Hytera.RadioControlProtocol.BroadcastStatusConfigurationRequest.read_local, Hytera.RadioControlProtocol.CallRequest.read_local, Hytera.RadioControlProtocol.RemoveRadioRequest.read_local, Hytera.RadioControlProtocol.BroadcastStatusConfigurationReply.read_local, Hytera.RadioControlProtocol.RemoveRadioReply.read_local, Hytera.RadioControlProtocol.GenericData.read_local _]

theorem Hytera.RadioControlProtocol.read_local : Local G (Hytera.RadioControlProtocol.read) := by
  unfold Hytera.RadioControlProtocol.read
  local_reader [Hytera.RadioControlProtocol.readData_local _ _]

theorem Hytera.RadioId.read_local : Local G (Hytera.RadioId.read) := by
  unfold Hytera.RadioId.read
  local_reader []

theorem Hytera.RadioRegistrationService.read_local : Local G (Hytera.RadioRegistrationService.read) := by
  unfold Hytera.RadioRegistrationService.read
  local_reader [Hytera.RadioIp.read_local]

theorem Hytera.RealTimeTransportProtocol.FixedHeader.read_local : Local G (Hytera.RealTimeTransportProtocol.FixedHeader.read) := by
  unfold Hytera.RealTimeTransportProtocol.FixedHeader.read
  local_reader []

theorem Hytera.RealTimeTransportProtocol.HeaderExtension.read_local : Local G (Hytera.RealTimeTransportProtocol.HeaderExtension.read) := by
  unfold Hytera.RealTimeTransportProtocol.HeaderExtension.read
  local_reader [Hytera.RadioId.read_local]

theorem Hytera.TelemetryProtocol.StandardStatusReport.read_local : Local G (Hytera.TelemetryProtocol.StandardStatusReport.read) := by
  unfold Hytera.TelemetryProtocol.StandardStatusReport.read
  local_reader [Hytera.RadioIp.read_local]

theorem Hytera.TelemetryProtocol.VioExtendedStatus.read_local : Local G (Hytera.TelemetryProtocol.VioExtendedStatus.read) := by
  unfold Hytera.TelemetryProtocol.VioExtendedStatus.read
  local_reader []

theorem Hytera.TelemetryProtocol.RemoteControlAnswer.read_local : Local G (Hytera.TelemetryProtocol.RemoteControlAnswer.read) := by
  unfold Hytera.TelemetryProtocol.RemoteControlAnswer.read
  local_reader [Hytera.RadioIp.read_local]

theorem Hytera.TelemetryProtocol.RemoteControlRequest.read_local : Local G (Hytera.TelemetryProtocol.RemoteControlRequest.read) := by
  unfold Hytera.TelemetryProtocol.RemoteControlRequest.read
  local_reader [Hytera.RadioIp.read_local]

theorem Hytera.TelemetryProtocol.ExtendedStatusReport.read_local : Local G (Hytera.TelemetryProtocol.ExtendedStatusReport.read) := by
  unfold Hytera.TelemetryProtocol.ExtendedStatusReport.read
  local_reader [Hytera.RadioIp.read_local, Hytera.TelemetryProtocol.VioExtendedStatus.read_local]

theorem Hytera.TelemetryProtocol.StandardStatusRequest.read_local : Local G (Hytera.TelemetryProtocol.StandardStatusRequest.read) := by
  unfold Hytera.TelemetryProtocol.StandardStatusRequest.read
  local_reader [Hytera.RadioIp.read_local]

theorem Hytera.TelemetryProtocol.readData_local (on : EnumVal TelemetryProtocol.ServiceSpecificTypes) : Local G (Hytera.TelemetryProtocol.readData on) := by
  unfold Hytera.TelemetryProtocol.readData
  local_reader [Hytera.TelemetryProtocol.StandardStatusRequest.read_local, Hytera.TelemetryProtocol.RemoteControlAnswer.read_local, Hytera.TelemetryProtocol.ExtendedStatusReport.read_local, Hytera.TelemetryProtocol.RemoteControlRequest.read_local, Hytera.TelemetryProtocol.StandardStatusReport.read_local]

theorem Hytera.TextMessageProtocol.optionFlagIsOne_local (f : EnumVal TextMessageProtocol.OptionFlags) : Local G (Hytera.TextMessageProtocol.optionFlagIsOne f) := by
  unfold Hytera.TextMessageProtocol.optionFlagIsOne
  local_reader []

theorem Hytera.TextMessageProtocol.optionSumLen_local (f : EnumVal TextMessageProtocol.OptionFlags) (len : Option Nat) : Local G (Hytera.TextMessageProtocol.optionSumLen f len) := by
  unfold Hytera.TextMessageProtocol.optionSumLen
  local_reader [Hytera.TextMessageProtocol.optionFlagIsOne_local _]

theorem Hytera.TextMessageProtocol.readOptionField_local (len : Option Nat) : Local G (Hytera.TextMessageProtocol.readOptionField len) := by
  unfold Hytera.TextMessageProtocol.readOptionField
  local_reader []

theorem Hytera.TextMessageProtocol.read_local : Local G (Hytera.TextMessageProtocol.read) := by
  unfold Hytera.TextMessageProtocol.read
  local_reader [Hytera.TextMessageProtocol.optionFlagIsOne_local _, Hytera.RadioIp.read_local, Hytera.TextMessageProtocol.optionSumLen_local _ _, Hytera.TextMessageProtocol.readOptionField_local _]

theorem Motorola.AutomaticRegistrationService.MessageHeaderBits.read_local : Local G (Motorola.AutomaticRegistrationService.MessageHeaderBits.read) := by
  unfold Motorola.AutomaticRegistrationService.MessageHeaderBits.read
  local_reader []

theorem Motorola.AutomaticRegistrationService.DeviceRegistrationAcknowledgementHeader.read_local : Local G (Motorola.AutomaticRegistrationService.DeviceRegistrationAcknowledgementHeader.read) := by
  unfold Motorola.AutomaticRegistrationService.DeviceRegistrationAcknowledgementHeader.read
  local_reader []

theorem Motorola.AutomaticRegistrationService.DeviceRegistrationAcknowledgementFailureReason.read_local : Local G (Motorola.AutomaticRegistrationService.DeviceRegistrationAcknowledgementFailureReason.read) := by
  unfold Motorola.AutomaticRegistrationService.DeviceRegistrationAcknowledgementFailureReason.read
  local_reader []

theorem Motorola.AutomaticRegistrationService.AcknowledgementMessage.read_local (root_message_header : AutomaticRegistrationService.MessageHeaderBits) : Local G (Motorola.AutomaticRegistrationService.AcknowledgementMessage.read root_message_header) := by
  unfold Motorola.AutomaticRegistrationService.AcknowledgementMessage.read
  local_reader [Motorola.AutomaticRegistrationService.DeviceRegistrationAcknowledgementHeader.read_local, Motorola.AutomaticRegistrationService.DeviceRegistrationAcknowledgementFailureReason.read_local]

theorem Motorola.AutomaticRegistrationService.DeviceRegistrationMessageHeader.read_local : Local G (Motorola.AutomaticRegistrationService.DeviceRegistrationMessageHeader.read) := by
  unfold Motorola.AutomaticRegistrationService.DeviceRegistrationMessageHeader.read
  local_reader []

theorem Motorola.AutomaticRegistrationService.DeviceDeregistrationMessage.read_local : Local G (Motorola.AutomaticRegistrationService.DeviceDeregistrationMessage.read) := by
  unfold Motorola.AutomaticRegistrationService.DeviceDeregistrationMessage.read
  local_reader []

theorem Motorola.AutomaticRegistrationService.DeviceRegistrationMessage.read_local (root_message_header : AutomaticRegistrationService.MessageHeaderBits) : Local G (Motorola.AutomaticRegistrationService.DeviceRegistrationMessage.read root_message_header) := by
  unfold Motorola.AutomaticRegistrationService.DeviceRegistrationMessage.read
  local_reader [Motorola.AutomaticRegistrationService.DeviceRegistrationMessageHeader.read_local]

theorem Motorola.AutomaticRegistrationService.ArsQueryMessage.read_local : Local G (Motorola.AutomaticRegistrationService.ArsQueryMessage.read) := by
  unfold Motorola.AutomaticRegistrationService.ArsQueryMessage.read
  local_reader []

theorem Motorola.AutomaticRegistrationService.readPduContent_local (on : Nat) (message_header : AutomaticRegistrationService.MessageHeaderBits) : Local G (Motorola.AutomaticRegistrationService.readPduContent on message_header) := by
  unfold Motorola.AutomaticRegistrationService.readPduContent
  local_reader [Motorola.AutomaticRegistrationService.DeviceRegistrationMessage.read_local _, Motorola.AutomaticRegistrationService.DeviceDeregistrationMessage.read_local, Motorola.AutomaticRegistrationService.ArsQueryMessage.read_local, Motorola.AutomaticRegistrationService.AcknowledgementMessage.read_local _]

theorem Motorola.MotorolaBinaryXml.OpaqueElementValue.read_local : Local G (Motorola.MotorolaBinaryXml.OpaqueElementValue.read) := by
  unfold Motorola.MotorolaBinaryXml.OpaqueElementValue.read
  local_reader []

theorem Motorola.MotorolaBinaryXml.Opaque1byteValue.read_local : Local G (Motorola.MotorolaBinaryXml.Opaque1byteValue.read) := by
  unfold Motorola.MotorolaBinaryXml.Opaque1byteValue.read
  local_reader []

theorem Motorola.MotorolaBinaryXml.Opaque3byteValue.read_local : Local G (Motorola.MotorolaBinaryXml.Opaque3byteValue.read) := by
  unfold Motorola.MotorolaBinaryXml.Opaque3byteValue.read
  local_reader []

theorem Motorola.MotorolaBinaryXml.Opaque5byteValue.read_local : Local G (Motorola.MotorolaBinaryXml.Opaque5byteValue.read) := by
  unfold Motorola.MotorolaBinaryXml.Opaque5byteValue.read
  local_reader []

theorem Motorola.MotorolaBinaryXml.Opaque2byteValue.read_local : Local G (Motorola.MotorolaBinaryXml.Opaque2byteValue.read) := by
  unfold Motorola.MotorolaBinaryXml.Opaque2byteValue.read
  local_reader []

theorem Motorola.MotorolaBinaryXml.Opaque4byteValue.read_local : Local G (Motorola.MotorolaBinaryXml.Opaque4byteValue.read) := by
  unfold Motorola.MotorolaBinaryXml.Opaque4byteValue.read
  local_reader []

theorem Motorola.TextMessageProtocol.MessageHeaderBits.read_local : Local G (Motorola.TextMessageProtocol.MessageHeaderBits.read) := by
  unfold Motorola.TextMessageProtocol.MessageHeaderBits.read
  local_reader []

theorem Motorola.TextMessageProtocol.TextMessageHeaderSequenceAndEncoding.read_local : Local G (Motorola.TextMessageProtocol.TextMessageHeaderSequenceAndEncoding.read) := by
  unfold Motorola.TextMessageProtocol.TextMessageHeaderSequenceAndEncoding.read
  local_reader []

theorem Motorola.TextMessageProtocol.TmsServiceAvailabilityHeader.read_local : Local G (Motorola.TextMessageProtocol.TmsServiceAvailabilityHeader.read) := by
  unfold Motorola.TextMessageProtocol.TmsServiceAvailabilityHeader.read
  local_reader []

theorem Motorola.TextMessageProtocol.TmsServiceAvailability.read_local (root_message_header : TextMessageProtocol.MessageHeaderBits) : Local G (Motorola.TextMessageProtocol.TmsServiceAvailability.read root_message_header) := by
  unfold Motorola.TextMessageProtocol.TmsServiceAvailability.read
  local_reader [Motorola.TextMessageProtocol.TmsServiceAvailabilityHeader.read_local]

theorem Motorola.TextMessageProtocol.TmsAcknowledgementHeaderSequenceNumber.read_local : Local G (Motorola.TextMessageProtocol.TmsAcknowledgementHeaderSequenceNumber.read) := by
  unfold Motorola.TextMessageProtocol.TmsAcknowledgementHeaderSequenceNumber.read
  local_reader []

theorem Motorola.TextMessageProtocol.TmsAcknowledgement.read_local (root_message_header : TextMessageProtocol.MessageHeaderBits) : Local G (Motorola.TextMessageProtocol.TmsAcknowledgement.read root_message_header) := by
  unfold Motorola.TextMessageProtocol.TmsAcknowledgement.read
  local_reader [Motorola.TextMessageProtocol.TmsAcknowledgementHeaderSequenceNumber.read_local]

theorem Motorola.TextMessageProtocol.TmsServiceAvailabilityAcknowledgement.read_local : Local G (Motorola.TextMessageProtocol.TmsServiceAvailabilityAcknowledgement.read) := by
  unfold Motorola.TextMessageProtocol.TmsServiceAvailabilityAcknowledgement.read
  local_reader []

end Dmr
