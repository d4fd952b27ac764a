import Verif.Grow
import Verif.Model.Etsi.DmrCsbk
import Verif.Model.Etsi.DmrData
import Verif.Model.Etsi.DmrDataHeader
import Verif.Model.Etsi.DmrIpUdp
import Verif.Model.Etsi.FullLinkControl
import Verif.Model.Homebrew.Homebrew2015
import Verif.Model.Homebrew.Mmdvm2020
import Verif.Model.Hytera.DataDeliveryStates
import Verif.Model.Hytera.DataTransmitProtocol
import Verif.Model.Hytera.Datetimestring
import Verif.Model.Hytera.Gpsdata
import Verif.Model.Hytera.HyteraDmrApplicationProtocol
import Verif.Model.Hytera.HyteraRadioNetworkProtocol
import Verif.Model.Hytera.HyteraSimpleTransportReliabilityProtocol
import Verif.Model.Hytera.Intervalstring
import Verif.Model.Hytera.IpSiteConnectHeartbeat
import Verif.Model.Hytera.IpSiteConnectProtocol
import Verif.Model.Hytera.LocationProtocol
import Verif.Model.Hytera.RadioControlProtocol
import Verif.Model.Hytera.RadioId
import Verif.Model.Hytera.RadioIp
import Verif.Model.Hytera.RadioRegistrationService
import Verif.Model.Hytera.RealTimeTransportProtocol
import Verif.Model.Hytera.TelemetryProtocol
import Verif.Model.Hytera.TextMessageProtocol
import Verif.Model.Motorola.AutomaticRegistrationService
import Verif.Model.Motorola.MotorolaBinaryXml
import Verif.Model.Motorola.MotorolaUtils
import Verif.Model.Motorola.TextMessageProtocol
import Verif.Model.Tools.Byteswap
import Verif.Model.Tools.Debug
import Verif.Model.Tools.Prettyprint
import Verif.Model.Tools.PyView
/-
`Grows` for every decoder that does not look at the size or the end of the stream, nor contains one that does (generated by
tools/mkgrow.py). Not so: Etsi.DmrDataHeader.DataHeaderUndefined.read, Etsi.DmrDataHeader.readDataBody, Etsi.DmrIpUdp.UdpIpv4CompressedHeader.read, Etsi.FullLinkControl.read, Homebrew.Homebrew2015.TypeDmrData.read, Homebrew.Homebrew2015.TypeMasterRepeaterAck.read, Homebrew.Homebrew2015.TypeRepeaterConfiguration.read, Homebrew.Homebrew2015.TypeRepeaterConfigurationOrClosing.read, Homebrew.Homebrew2015.TypeRepeaterConfigurationOrClosing.readData, Homebrew.Homebrew2015.TypeRepeaterOptions.read, Homebrew.Homebrew2015.read, Homebrew.Homebrew2015.readCommandData, Homebrew.Mmdvm2020.TypeDmrData.read, Homebrew.Mmdvm2020.TypeRepeaterConfiguration.read, Homebrew.Mmdvm2020.TypeRepeaterConfigurationOrClosing.read, Homebrew.Mmdvm2020.TypeRepeaterConfigurationOrClosing.readData, Homebrew.Mmdvm2020.TypeRepeaterOptions.read, Homebrew.Mmdvm2020.TypeUnknown.read, Homebrew.Mmdvm2020.read, Homebrew.Mmdvm2020.readCommandData, Hytera.HyteraDmrApplicationProtocol.UndefinedProtocol.read, Hytera.HyteraSimpleTransportReliabilityProtocol.read, Hytera.IpSiteConnectHeartbeat.Unknown.read, Hytera.IpSiteConnectHeartbeat.read, Hytera.IpSiteConnectHeartbeat.readData, Hytera.IpSiteConnectProtocol.read, Hytera.RealTimeTransportProtocol.read, Motorola.AutomaticRegistrationService.read, Motorola.MotorolaBinaryXml.ConstantDataTableReference.read, Motorola.MotorolaBinaryXml.LrrpElement.read, Motorola.MotorolaBinaryXml.LrrpElement.readLrrpElementData, Motorola.MotorolaBinaryXml.LrrpImmediateRequestNcdt.read, Motorola.MotorolaBinaryXml.MbxmlDocument.read, Motorola.MotorolaBinaryXml.MbxmlDocument.readDocumentData, Motorola.MotorolaBinaryXml.Sfloatvar.read, Motorola.MotorolaBinaryXml.Sintvar.read, Motorola.MotorolaBinaryXml.Ufloatvar.read, Motorola.MotorolaBinaryXml.Uintvar.read, Motorola.MotorolaBinaryXml.read, Motorola.TextMessageProtocol.TextMessage.read, Motorola.TextMessageProtocol.read, Motorola.TextMessageProtocol.readPduContent.
-/

set_option linter.unusedVariables false

namespace Dmr

theorem Etsi.DmrCsbk.NegativeAckResponseData.read_grows : Grows (Etsi.DmrCsbk.NegativeAckResponseData.read) := by
  unfold Etsi.DmrCsbk.NegativeAckResponseData.read
  grow_reader []

theorem Etsi.DmrCsbk.ServiceOptions.read_grows : Grows (Etsi.DmrCsbk.ServiceOptions.read) := by
  unfold Etsi.DmrCsbk.ServiceOptions.read
  grow_reader []

theorem Etsi.DmrCsbk.UnitToUnitVoiceRequestData.read_grows : Grows (Etsi.DmrCsbk.UnitToUnitVoiceRequestData.read) := by
  unfold Etsi.DmrCsbk.UnitToUnitVoiceRequestData.read
  grow_reader [Etsi.DmrCsbk.ServiceOptions.read_grows]

theorem Etsi.DmrCsbk.PreambleData.read_grows : Grows (Etsi.DmrCsbk.PreambleData.read) := by
  unfold Etsi.DmrCsbk.PreambleData.read
  grow_reader []

theorem Etsi.DmrCsbk.ChannelTimingData.read_grows : Grows (Etsi.DmrCsbk.ChannelTimingData.read) := by
  unfold Etsi.DmrCsbk.ChannelTimingData.read
  grow_reader []

theorem Etsi.DmrCsbk.BsOutboundActivationData.read_grows : Grows (Etsi.DmrCsbk.BsOutboundActivationData.read) := by
  unfold Etsi.DmrCsbk.BsOutboundActivationData.read
  grow_reader []

theorem Etsi.DmrCsbk.UnitToUnitVoiceAnswerData.read_grows : Grows (Etsi.DmrCsbk.UnitToUnitVoiceAnswerData.read) := by
  unfold Etsi.DmrCsbk.UnitToUnitVoiceAnswerData.read
  grow_reader [Etsi.DmrCsbk.ServiceOptions.read_grows]

theorem Etsi.DmrCsbk.readCsbkData_grows (on : EnumVal DmrCsbk.CsbkoTypes) : Grows (Etsi.DmrCsbk.readCsbkData on) := by
  unfold Etsi.DmrCsbk.readCsbkData
  grow_reader [Etsi.DmrCsbk.UnitToUnitVoiceAnswerData.read_grows, Etsi.DmrCsbk.PreambleData.read_grows, Etsi.DmrCsbk.ChannelTimingData.read_grows, Etsi.DmrCsbk.UnitToUnitVoiceRequestData.read_grows, Etsi.DmrCsbk.BsOutboundActivationData.read_grows, Etsi.DmrCsbk.NegativeAckResponseData.read_grows]

theorem Etsi.DmrCsbk.read_grows : Grows (Etsi.DmrCsbk.read) := by
  unfold Etsi.DmrCsbk.read
  grow_reader [Etsi.DmrCsbk.readCsbkData_grows _]

theorem Etsi.DmrData.Rate1LastBlockUnconfirmed.read_grows : Grows (Etsi.DmrData.Rate1LastBlockUnconfirmed.read) := by
  unfold Etsi.DmrData.Rate1LastBlockUnconfirmed.read
  grow_reader []

theorem Etsi.DmrData.Rate12LastBlockConfirmed.read_grows : Grows (Etsi.DmrData.Rate12LastBlockConfirmed.read) := by
  unfold Etsi.DmrData.Rate12LastBlockConfirmed.read
  grow_reader []

theorem Etsi.DmrData.Rate12Confirmed.read_grows : Grows (Etsi.DmrData.Rate12Confirmed.read) := by
  unfold Etsi.DmrData.Rate12Confirmed.read
  grow_reader []

theorem Etsi.DmrData.Rate34LastBlockUnconfirmed.read_grows : Grows (Etsi.DmrData.Rate34LastBlockUnconfirmed.read) := by
  unfold Etsi.DmrData.Rate34LastBlockUnconfirmed.read
  grow_reader []

theorem Etsi.DmrData.Rate1LastBlockConfirmed.read_grows : Grows (Etsi.DmrData.Rate1LastBlockConfirmed.read) := by
  unfold Etsi.DmrData.Rate1LastBlockConfirmed.read
  grow_reader []

theorem Etsi.DmrData.Rate1Unconfirmed.read_grows : Grows (Etsi.DmrData.Rate1Unconfirmed.read) := by
  unfold Etsi.DmrData.Rate1Unconfirmed.read
  grow_reader []

theorem Etsi.DmrData.UdtLastBlock.read_grows : Grows (Etsi.DmrData.UdtLastBlock.read) := by
  unfold Etsi.DmrData.UdtLastBlock.read
  grow_reader []

theorem Etsi.DmrData.Rate34Confirmed.read_grows : Grows (Etsi.DmrData.Rate34Confirmed.read) := by
  unfold Etsi.DmrData.Rate34Confirmed.read
  grow_reader []

theorem Etsi.DmrData.Rate34LastBlockConfirmed.read_grows : Grows (Etsi.DmrData.Rate34LastBlockConfirmed.read) := by
  unfold Etsi.DmrData.Rate34LastBlockConfirmed.read
  grow_reader []

theorem Etsi.DmrData.Rate34Unconfirmed.read_grows : Grows (Etsi.DmrData.Rate34Unconfirmed.read) := by
  unfold Etsi.DmrData.Rate34Unconfirmed.read
  grow_reader []

theorem Etsi.DmrData.Rate12LastBlockUnconfirmed.read_grows : Grows (Etsi.DmrData.Rate12LastBlockUnconfirmed.read) := by
  unfold Etsi.DmrData.Rate12LastBlockUnconfirmed.read
  grow_reader []

theorem Etsi.DmrData.Rate1Confirmed.read_grows : Grows (Etsi.DmrData.Rate1Confirmed.read) := by
  unfold Etsi.DmrData.Rate1Confirmed.read
  grow_reader []

theorem Etsi.DmrData.Rate12Unconfirmed.read_grows : Grows (Etsi.DmrData.Rate12Unconfirmed.read) := by
  unfold Etsi.DmrData.Rate12Unconfirmed.read
  grow_reader []

theorem Etsi.DmrData.read_grows : Grows (Etsi.DmrData.read) := by
  unfold Etsi.DmrData.read
  grow_reader []

theorem Etsi.DmrDataHeader.DataHeaderShortRaw.read_grows : Grows (Etsi.DmrDataHeader.DataHeaderShortRaw.read) := by
  unfold Etsi.DmrDataHeader.DataHeaderShortRaw.read
  grow_reader []

theorem Etsi.DmrDataHeader.DataHeaderProprietary.read_grows : Grows (Etsi.DmrDataHeader.DataHeaderProprietary.read) := by
  unfold Etsi.DmrDataHeader.DataHeaderProprietary.read
  grow_reader []

theorem Etsi.DmrDataHeader.DataHeaderShortStatusPrecoded.read_grows : Grows (Etsi.DmrDataHeader.DataHeaderShortStatusPrecoded.read) := by
  unfold Etsi.DmrDataHeader.DataHeaderShortStatusPrecoded.read
  grow_reader []

theorem Etsi.DmrDataHeader.DataHeaderResponse.read_grows : Grows (Etsi.DmrDataHeader.DataHeaderResponse.read) := by
  unfold Etsi.DmrDataHeader.DataHeaderResponse.read
  grow_reader []

theorem Etsi.DmrDataHeader.DataHeaderConfirmed.read_grows : Grows (Etsi.DmrDataHeader.DataHeaderConfirmed.read) := by
  unfold Etsi.DmrDataHeader.DataHeaderConfirmed.read
  grow_reader []

theorem Etsi.DmrDataHeader.DataHeaderUnconfirmed.read_grows : Grows (Etsi.DmrDataHeader.DataHeaderUnconfirmed.read) := by
  unfold Etsi.DmrDataHeader.DataHeaderUnconfirmed.read
  grow_reader []

theorem Etsi.DmrDataHeader.DataHeaderShortDefined.read_grows : Grows (Etsi.DmrDataHeader.DataHeaderShortDefined.read) := by
  unfold Etsi.DmrDataHeader.DataHeaderShortDefined.read
  grow_reader []

theorem Etsi.DmrDataHeader.DataHeaderUdt.read_grows : Grows (Etsi.DmrDataHeader.DataHeaderUdt.read) := by
  unfold Etsi.DmrDataHeader.DataHeaderUdt.read
  grow_reader []

theorem Etsi.DmrDataHeader.read_grows : Grows (Etsi.DmrDataHeader.read) := by
  unfold Etsi.DmrDataHeader.read
  grow_reader []

theorem Etsi.DmrIpUdp.read_grows : Grows (Etsi.DmrIpUdp.read) := by
  unfold Etsi.DmrIpUdp.read
  grow_reader []

theorem Etsi.FullLinkControl.GpsInfoLcPdu.read_grows : Grows (Etsi.FullLinkControl.GpsInfoLcPdu.read) := by
  unfold Etsi.FullLinkControl.GpsInfoLcPdu.read
  grow_reader []

theorem Etsi.FullLinkControl.GroupVoiceChannelUser.read_grows : Grows (Etsi.FullLinkControl.GroupVoiceChannelUser.read) := by
  unfold Etsi.FullLinkControl.GroupVoiceChannelUser.read
  grow_reader []

theorem Etsi.FullLinkControl.UnitToUnitVoiceChannelUser.read_grows : Grows (Etsi.FullLinkControl.UnitToUnitVoiceChannelUser.read) := by
  unfold Etsi.FullLinkControl.UnitToUnitVoiceChannelUser.read
  grow_reader []

theorem Etsi.FullLinkControl.TalkerAliasHeader.read_grows : Grows (Etsi.FullLinkControl.TalkerAliasHeader.read) := by
  unfold Etsi.FullLinkControl.TalkerAliasHeader.read
  grow_reader []

theorem Etsi.FullLinkControl.TalkerAliasContinuation.read_grows : Grows (Etsi.FullLinkControl.TalkerAliasContinuation.read) := by
  unfold Etsi.FullLinkControl.TalkerAliasContinuation.read
  grow_reader []

theorem Etsi.FullLinkControl.readSpecificData_grows (on : EnumVal FullLinkControl.Flcos) : Grows (Etsi.FullLinkControl.readSpecificData on) := by
  unfold Etsi.FullLinkControl.readSpecificData
  grow_reader [Etsi.FullLinkControl.TalkerAliasHeader.read_grows, Etsi.FullLinkControl.UnitToUnitVoiceChannelUser.read_grows, Etsi.FullLinkControl.GroupVoiceChannelUser.read_grows, Etsi.FullLinkControl.TalkerAliasContinuation.read_grows, Etsi.FullLinkControl.GpsInfoLcPdu.read_grows]

theorem Homebrew.Homebrew2015.TypeMasterPing.read_grows : Grows (Homebrew.Homebrew2015.TypeMasterPing.read) := by
  unfold Homebrew.Homebrew2015.TypeMasterPing.read
  grow_reader []

theorem Homebrew.Homebrew2015.TypeRepeaterPong.read_grows : Grows (Homebrew.Homebrew2015.TypeRepeaterPong.read) := by
  unfold Homebrew.Homebrew2015.TypeRepeaterPong.read
  grow_reader []

theorem Homebrew.Homebrew2015.TypeRepeaterClosing.read_grows : Grows (Homebrew.Homebrew2015.TypeRepeaterClosing.read) := by
  unfold Homebrew.Homebrew2015.TypeRepeaterClosing.read
  grow_reader []

theorem Homebrew.Homebrew2015.computeFifthLetter_grows : Grows (Homebrew.Homebrew2015.computeFifthLetter) := by
  unfold Homebrew.Homebrew2015.computeFifthLetter
  grow_reader []

theorem Homebrew.Homebrew2015.TypeRepeaterLoginResponse.read_grows : Grows (Homebrew.Homebrew2015.TypeRepeaterLoginResponse.read) := by
  unfold Homebrew.Homebrew2015.TypeRepeaterLoginResponse.read
  grow_reader []

theorem Homebrew.Homebrew2015.TypeRepeaterLoginRequest.read_grows : Grows (Homebrew.Homebrew2015.TypeRepeaterLoginRequest.read) := by
  unfold Homebrew.Homebrew2015.TypeRepeaterLoginRequest.read
  grow_reader []

theorem Homebrew.Homebrew2015.TypeMasterNotAccept.read_grows : Grows (Homebrew.Homebrew2015.TypeMasterNotAccept.read) := by
  unfold Homebrew.Homebrew2015.TypeMasterNotAccept.read
  grow_reader []

theorem Homebrew.Homebrew2015.TypeMasterClosing.read_grows : Grows (Homebrew.Homebrew2015.TypeMasterClosing.read) := by
  unfold Homebrew.Homebrew2015.TypeMasterClosing.read
  grow_reader []

theorem Homebrew.Mmdvm2020.TypeMasterPong.read_grows : Grows (Homebrew.Mmdvm2020.TypeMasterPong.read) := by
  unfold Homebrew.Mmdvm2020.TypeMasterPong.read
  grow_reader []

theorem Homebrew.Mmdvm2020.TypeRadioPosition.read_grows : Grows (Homebrew.Mmdvm2020.TypeRadioPosition.read) := by
  unfold Homebrew.Mmdvm2020.TypeRadioPosition.read
  grow_reader []

theorem Homebrew.Mmdvm2020.TypeTalkerAlias.read_grows : Grows (Homebrew.Mmdvm2020.TypeTalkerAlias.read) := by
  unfold Homebrew.Mmdvm2020.TypeTalkerAlias.read
  grow_reader []

theorem Homebrew.Mmdvm2020.TypeRepeaterClosing.read_grows : Grows (Homebrew.Mmdvm2020.TypeRepeaterClosing.read) := by
  unfold Homebrew.Mmdvm2020.TypeRepeaterClosing.read
  grow_reader []

theorem Homebrew.Mmdvm2020.computeFifthLetter_grows : Grows (Homebrew.Mmdvm2020.computeFifthLetter) := by
  unfold Homebrew.Mmdvm2020.computeFifthLetter
  grow_reader []

theorem Homebrew.Mmdvm2020.TypeRepeaterLoginResponse.read_grows : Grows (Homebrew.Mmdvm2020.TypeRepeaterLoginResponse.read) := by
  unfold Homebrew.Mmdvm2020.TypeRepeaterLoginResponse.read
  grow_reader []

theorem Homebrew.Mmdvm2020.TypeRepeaterLoginRequest.read_grows : Grows (Homebrew.Mmdvm2020.TypeRepeaterLoginRequest.read) := by
  unfold Homebrew.Mmdvm2020.TypeRepeaterLoginRequest.read
  grow_reader []

theorem Homebrew.Mmdvm2020.TypeMasterNotAccept.read_grows : Grows (Homebrew.Mmdvm2020.TypeMasterNotAccept.read) := by
  unfold Homebrew.Mmdvm2020.TypeMasterNotAccept.read
  grow_reader []

theorem Homebrew.Mmdvm2020.TypeMasterRepeaterAck.read_grows : Grows (Homebrew.Mmdvm2020.TypeMasterRepeaterAck.read) := by
  unfold Homebrew.Mmdvm2020.TypeMasterRepeaterAck.read
  grow_reader []

theorem Homebrew.Mmdvm2020.TypeMasterClosing.read_grows : Grows (Homebrew.Mmdvm2020.TypeMasterClosing.read) := by
  unfold Homebrew.Mmdvm2020.TypeMasterClosing.read
  grow_reader []

theorem Homebrew.Mmdvm2020.TypeRepeaterBeacon.read_grows : Grows (Homebrew.Mmdvm2020.TypeRepeaterBeacon.read) := by
  unfold Homebrew.Mmdvm2020.TypeRepeaterBeacon.read
  grow_reader []

theorem Homebrew.Mmdvm2020.TypeRepeaterPing.read_grows : Grows (Homebrew.Mmdvm2020.TypeRepeaterPing.read) := by
  unfold Homebrew.Mmdvm2020.TypeRepeaterPing.read
  grow_reader []

theorem Hytera.RadioIp.read_grows : Grows (Hytera.RadioIp.read) := by
  unfold Hytera.RadioIp.read
  grow_reader []

theorem Hytera.DataDeliveryStates.read_grows : Grows (Hytera.DataDeliveryStates.read) := by
  unfold Hytera.DataDeliveryStates.read
  grow_reader [Hytera.RadioIp.read_grows]

theorem Hytera.DataTransmitProtocol.LastDataSlice.read_grows : Grows (Hytera.DataTransmitProtocol.LastDataSlice.read) := by
  unfold Hytera.DataTransmitProtocol.LastDataSlice.read
  grow_reader [Hytera.RadioIp.read_grows]

theorem Hytera.DataTransmitProtocol.DtpRequest.read_grows (parent_message_length : Nat) : Grows (Hytera.DataTransmitProtocol.DtpRequest.read parent_message_length) := by
  unfold Hytera.DataTransmitProtocol.DtpRequest.read
  grow_reader [Hytera.RadioIp.read_grows]

theorem Hytera.DataTransmitProtocol.DataSliceAnswer.read_grows : Grows (Hytera.DataTransmitProtocol.DataSliceAnswer.read) := by
  unfold Hytera.DataTransmitProtocol.DataSliceAnswer.read
  grow_reader [Hytera.RadioIp.read_grows]

theorem Hytera.DataTransmitProtocol.DataSliceTransmit.read_grows (parent_message_length : Nat) : Grows (Hytera.DataTransmitProtocol.DataSliceTransmit.read parent_message_length) := by
  unfold Hytera.DataTransmitProtocol.DataSliceTransmit.read
  grow_reader [Hytera.RadioIp.read_grows]

theorem Hytera.DataTransmitProtocol.LastDataSliceAnswer.read_grows : Grows (Hytera.DataTransmitProtocol.LastDataSliceAnswer.read) := by
  unfold Hytera.DataTransmitProtocol.LastDataSliceAnswer.read
  grow_reader [Hytera.RadioIp.read_grows]

theorem Hytera.DataTransmitProtocol.DtpAnswer.read_grows : Grows (Hytera.DataTransmitProtocol.DtpAnswer.read) := by
  unfold Hytera.DataTransmitProtocol.DtpAnswer.read
  grow_reader [Hytera.RadioIp.read_grows]

theorem Hytera.DataTransmitProtocol.readData_grows (on : EnumVal DataTransmitProtocol.ServiceSpecificTypes) (message_length : Nat) : Grows (Hytera.DataTransmitProtocol.readData on message_length) := by
  unfold Hytera.DataTransmitProtocol.readData
  grow_reader [Hytera.DataTransmitProtocol.DtpRequest.read_grows _, Hytera.DataTransmitProtocol.DataSliceTransmit.read_grows _, Hytera.DataTransmitProtocol.DataSliceAnswer.read_grows, Hytera.DataTransmitProtocol.LastDataSliceAnswer.read_grows, Hytera.DataTransmitProtocol.DtpAnswer.read_grows, Hytera.DataTransmitProtocol.LastDataSlice.read_grows]

theorem Hytera.DataTransmitProtocol.read_grows : Grows (Hytera.DataTransmitProtocol.read) := by
  unfold Hytera.DataTransmitProtocol.read
  grow_reader [Hytera.DataTransmitProtocol.readData_grows _ _]

theorem Hytera.Datetimestring.read_grows : Grows (Hytera.Datetimestring.read) := by
  unfold Hytera.Datetimestring.read
  grow_reader []

theorem Hytera.Gpsdata.read_grows : Grows (Hytera.Gpsdata.read) := by
  unfold Hytera.Gpsdata.read
  grow_reader []

theorem Hytera.RadioRegistrationService.read_grows : Grows (Hytera.RadioRegistrationService.read) := by
  unfold Hytera.RadioRegistrationService.read
  grow_reader [Hytera.RadioIp.read_grows]

theorem Hytera.TelemetryProtocol.computeSpecificService_grows : Grows (Hytera.TelemetryProtocol.computeSpecificService) := by
  unfold Hytera.TelemetryProtocol.computeSpecificService
  grow_reader []

theorem Hytera.TelemetryProtocol.StandardStatusRequest.read_grows : Grows (Hytera.TelemetryProtocol.StandardStatusRequest.read) := by
  unfold Hytera.TelemetryProtocol.StandardStatusRequest.read
  grow_reader [Hytera.RadioIp.read_grows]

theorem Hytera.TelemetryProtocol.RemoteControlAnswer.read_grows : Grows (Hytera.TelemetryProtocol.RemoteControlAnswer.read) := by
  unfold Hytera.TelemetryProtocol.RemoteControlAnswer.read
  grow_reader [Hytera.RadioIp.read_grows]

theorem Hytera.TelemetryProtocol.VioExtendedStatus.read_grows : Grows (Hytera.TelemetryProtocol.VioExtendedStatus.read) := by
  unfold Hytera.TelemetryProtocol.VioExtendedStatus.read
  grow_reader []

theorem Hytera.TelemetryProtocol.ExtendedStatusReport.read_grows : Grows (Hytera.TelemetryProtocol.ExtendedStatusReport.read) := by
  unfold Hytera.TelemetryProtocol.ExtendedStatusReport.read
  grow_reader [Hytera.RadioIp.read_grows, Hytera.TelemetryProtocol.VioExtendedStatus.read_grows]

theorem Hytera.TelemetryProtocol.RemoteControlRequest.read_grows : Grows (Hytera.TelemetryProtocol.RemoteControlRequest.read) := by
  unfold Hytera.TelemetryProtocol.RemoteControlRequest.read
  grow_reader [Hytera.RadioIp.read_grows]

theorem Hytera.TelemetryProtocol.StandardStatusReport.read_grows : Grows (Hytera.TelemetryProtocol.StandardStatusReport.read) := by
  unfold Hytera.TelemetryProtocol.StandardStatusReport.read
  grow_reader [Hytera.RadioIp.read_grows]

theorem Hytera.TelemetryProtocol.readData_grows (on : EnumVal TelemetryProtocol.ServiceSpecificTypes) : Grows (Hytera.TelemetryProtocol.readData on) := by
  unfold Hytera.TelemetryProtocol.readData
  grow_reader [Hytera.TelemetryProtocol.StandardStatusRequest.read_grows, Hytera.TelemetryProtocol.RemoteControlAnswer.read_grows, Hytera.TelemetryProtocol.ExtendedStatusReport.read_grows, Hytera.TelemetryProtocol.RemoteControlRequest.read_grows, Hytera.TelemetryProtocol.StandardStatusReport.read_grows]

theorem Hytera.TelemetryProtocol.read_grows : Grows (Hytera.TelemetryProtocol.read) := by
  unfold Hytera.TelemetryProtocol.read
  grow_reader [Hytera.TelemetryProtocol.computeSpecificService_grows, Hytera.TelemetryProtocol.readData_grows _]

theorem Hytera.RadioControlProtocol.CallReply.read_grows : Grows (Hytera.RadioControlProtocol.CallReply.read) := by
  unfold Hytera.RadioControlProtocol.CallReply.read
  grow_reader []

theorem Hytera.RadioControlProtocol.RadioIdentificationReply.read_grows (parent_message_length : Nat) : Grows (Hytera.RadioControlProtocol.RadioIdentificationReply.read parent_message_length) := by
  unfold Hytera.RadioControlProtocol.RadioIdentificationReply.read
  grow_reader []

theorem Hytera.RadioControlProtocol.BroadcastConfiguration.read_grows : Grows (Hytera.RadioControlProtocol.BroadcastConfiguration.read) := by
  unfold Hytera.RadioControlProtocol.BroadcastConfiguration.read
  grow_reader []

theorem Hytera.RadioControlProtocol.BroadcastStatusConfigurationRequest.read_grows : Grows (Hytera.RadioControlProtocol.BroadcastStatusConfigurationRequest.read) := by
  unfold Hytera.RadioControlProtocol.BroadcastStatusConfigurationRequest.read
  grow_reader [Hytera.RadioControlProtocol.BroadcastConfiguration.read_grows]

theorem Hytera.RadioControlProtocol.CallRequest.read_grows : Grows (Hytera.RadioControlProtocol.CallRequest.read) := by
  unfold Hytera.RadioControlProtocol.CallRequest.read
  grow_reader []

theorem Hytera.RadioControlProtocol.RemoveRadioRequest.read_grows : Grows (Hytera.RadioControlProtocol.RemoveRadioRequest.read) := by
  unfold Hytera.RadioControlProtocol.RemoveRadioRequest.read
  grow_reader []

theorem Hytera.RadioControlProtocol.BroadcastStatusConfigurationReply.read_grows : Grows (Hytera.RadioControlProtocol.BroadcastStatusConfigurationReply.read) := by
  unfold Hytera.RadioControlProtocol.BroadcastStatusConfigurationReply.read
  grow_reader []

theorem Hytera.RadioControlProtocol.RemoveRadioReply.read_grows : Grows (Hytera.RadioControlProtocol.RemoveRadioReply.read) := by
  unfold Hytera.RadioControlProtocol.RemoveRadioReply.read
  grow_reader []

theorem Hytera.RadioControlProtocol.GenericData.read_grows (parent_message_length : Nat) : Grows (Hytera.RadioControlProtocol.GenericData.read parent_message_length) := by
  unfold Hytera.RadioControlProtocol.GenericData.read
  grow_reader []

theorem Hytera.RadioControlProtocol.readData_grows (on : EnumVal RadioControlProtocol.ServiceTypes) (message_length : Nat) : Grows (Hytera.RadioControlProtocol.readData on message_length) := by
  unfold Hytera.RadioControlProtocol.readData
  grow_reader [Hytera.RadioControlProtocol.CallReply.read_grows, Hytera.RadioControlProtocol.RadioIdentificationReply.read_grows _, Hytera.RadioControlProtocol.BroadcastStatusConfigurationRequest.read_grows, Hytera.RadioControlProtocol.CallRequest.read_grows, Hytera.RadioControlProtocol.RemoveRadioRequest.read_grows, Hytera.RadioControlProtocol.BroadcastStatusConfigurationReply.read_grows, Hytera.RadioControlProtocol.RemoveRadioReply.read_grows, Hytera.RadioControlProtocol.GenericData.read_grows _]

theorem Hytera.RadioControlProtocol.read_grows : Grows (Hytera.RadioControlProtocol.read) := by
  unfold Hytera.RadioControlProtocol.read
  grow_reader [Hytera.RadioControlProtocol.readData_grows _ _]

theorem Hytera.TextMessageProtocol.optionFlagIsOne_grows (f : EnumVal TextMessageProtocol.OptionFlags) : Grows (Hytera.TextMessageProtocol.optionFlagIsOne f) := by
  unfold Hytera.TextMessageProtocol.optionFlagIsOne
  grow_reader []

theorem Hytera.TextMessageProtocol.optionSumLen_grows (f : EnumVal TextMessageProtocol.OptionFlags) (len : Option Nat) : Grows (Hytera.TextMessageProtocol.optionSumLen f len) := by
  unfold Hytera.TextMessageProtocol.optionSumLen
  grow_reader [Hytera.TextMessageProtocol.optionFlagIsOne_grows _]

theorem Hytera.TextMessageProtocol.readOptionField_grows (len : Option Nat) : Grows (Hytera.TextMessageProtocol.readOptionField len) := by
  unfold Hytera.TextMessageProtocol.readOptionField
  grow_reader []

theorem Hytera.TextMessageProtocol.read_grows : Grows (Hytera.TextMessageProtocol.read) := by
  unfold Hytera.TextMessageProtocol.read
  grow_reader [Hytera.TextMessageProtocol.optionFlagIsOne_grows _, Hytera.RadioIp.read_grows, Hytera.TextMessageProtocol.optionSumLen_grows _ _, Hytera.TextMessageProtocol.readOptionField_grows _]

theorem Hytera.LocationProtocol.TriggeredReportAnswer.read_grows : Grows (Hytera.LocationProtocol.TriggeredReportAnswer.read) := by
  unfold Hytera.LocationProtocol.TriggeredReportAnswer.read
  grow_reader [Hytera.RadioIp.read_grows]

theorem Hytera.LocationProtocol.EmergencyReportStopRequest.read_grows : Grows (Hytera.LocationProtocol.EmergencyReportStopRequest.read) := by
  unfold Hytera.LocationProtocol.EmergencyReportStopRequest.read
  grow_reader [Hytera.RadioIp.read_grows]

theorem Hytera.Intervalstring.read_grows : Grows (Hytera.Intervalstring.read) := by
  unfold Hytera.Intervalstring.read
  grow_reader []

theorem Hytera.LocationProtocol.QuickGpsPayload.read_grows : Grows (Hytera.LocationProtocol.QuickGpsPayload.read) := by
  unfold Hytera.LocationProtocol.QuickGpsPayload.read
  grow_reader [Hytera.Datetimestring.read_grows, Hytera.Intervalstring.read_grows]

theorem Hytera.LocationProtocol.ConditionQuickGpsRequest.read_grows : Grows (Hytera.LocationProtocol.ConditionQuickGpsRequest.read) := by
  unfold Hytera.LocationProtocol.ConditionQuickGpsRequest.read
  grow_reader [Hytera.RadioIp.read_grows, Hytera.LocationProtocol.QuickGpsPayload.read_grows]

theorem Hytera.LocationProtocol.ConditionReport.read_grows : Grows (Hytera.LocationProtocol.ConditionReport.read) := by
  unfold Hytera.LocationProtocol.ConditionReport.read
  grow_reader [Hytera.RadioIp.read_grows, Hytera.Gpsdata.read_grows]

theorem Hytera.LocationProtocol.EmergencyReportStopAnswer.read_grows : Grows (Hytera.LocationProtocol.EmergencyReportStopAnswer.read) := by
  unfold Hytera.LocationProtocol.EmergencyReportStopAnswer.read
  grow_reader [Hytera.RadioIp.read_grows]

theorem Hytera.LocationProtocol.ConditionReportAnswer.read_grows : Grows (Hytera.LocationProtocol.ConditionReportAnswer.read) := by
  unfold Hytera.LocationProtocol.ConditionReportAnswer.read
  grow_reader [Hytera.RadioIp.read_grows]

theorem Hytera.LocationProtocol.StandardAnswer.read_grows : Grows (Hytera.LocationProtocol.StandardAnswer.read) := by
  unfold Hytera.LocationProtocol.StandardAnswer.read
  grow_reader [Hytera.RadioIp.read_grows, Hytera.Gpsdata.read_grows]

theorem Hytera.LocationProtocol.StandardRequest.read_grows : Grows (Hytera.LocationProtocol.StandardRequest.read) := by
  unfold Hytera.LocationProtocol.StandardRequest.read
  grow_reader [Hytera.RadioIp.read_grows]

theorem Hytera.LocationProtocol.TriggeredReport.read_grows : Grows (Hytera.LocationProtocol.TriggeredReport.read) := by
  unfold Hytera.LocationProtocol.TriggeredReport.read
  grow_reader [Hytera.RadioIp.read_grows, Hytera.Intervalstring.read_grows, Hytera.Gpsdata.read_grows]

theorem Hytera.LocationProtocol.TriggeredReportStopAnswer.read_grows : Grows (Hytera.LocationProtocol.TriggeredReportStopAnswer.read) := by
  unfold Hytera.LocationProtocol.TriggeredReportStopAnswer.read
  grow_reader [Hytera.RadioIp.read_grows]

theorem Hytera.LocationProtocol.StandardAnswerWithRssi.read_grows : Grows (Hytera.LocationProtocol.StandardAnswerWithRssi.read) := by
  unfold Hytera.LocationProtocol.StandardAnswerWithRssi.read
  grow_reader [Hytera.RadioIp.read_grows, Hytera.Gpsdata.read_grows]

theorem Hytera.LocationProtocol.ConditionReportWithRssi.read_grows : Grows (Hytera.LocationProtocol.ConditionReportWithRssi.read) := by
  unfold Hytera.LocationProtocol.ConditionReportWithRssi.read
  grow_reader [Hytera.RadioIp.read_grows, Hytera.Gpsdata.read_grows]

theorem Hytera.LocationProtocol.TriggeredReportStopRequest.read_grows : Grows (Hytera.LocationProtocol.TriggeredReportStopRequest.read) := by
  unfold Hytera.LocationProtocol.TriggeredReportStopRequest.read
  grow_reader [Hytera.RadioIp.read_grows]

theorem Hytera.LocationProtocol.EmergencyReport.read_grows : Grows (Hytera.LocationProtocol.EmergencyReport.read) := by
  unfold Hytera.LocationProtocol.EmergencyReport.read
  grow_reader [Hytera.RadioIp.read_grows, Hytera.Gpsdata.read_grows]

theorem Hytera.LocationProtocol.ConditionReportRequest.read_grows : Grows (Hytera.LocationProtocol.ConditionReportRequest.read) := by
  unfold Hytera.LocationProtocol.ConditionReportRequest.read
  grow_reader [Hytera.RadioIp.read_grows, Hytera.Datetimestring.read_grows, Hytera.Intervalstring.read_grows]

theorem Hytera.LocationProtocol.TriggeredReportRequest.read_grows : Grows (Hytera.LocationProtocol.TriggeredReportRequest.read) := by
  unfold Hytera.LocationProtocol.TriggeredReportRequest.read
  grow_reader [Hytera.RadioIp.read_grows, Hytera.Datetimestring.read_grows, Hytera.Intervalstring.read_grows]

theorem Hytera.LocationProtocol.ConditionQuickGpsAnswer.read_grows : Grows (Hytera.LocationProtocol.ConditionQuickGpsAnswer.read) := by
  unfold Hytera.LocationProtocol.ConditionQuickGpsAnswer.read
  grow_reader [Hytera.RadioIp.read_grows]

theorem Hytera.LocationProtocol.readData_grows (on : EnumVal LocationProtocol.LpSpecificTypes) : Grows (Hytera.LocationProtocol.readData on) := by
  unfold Hytera.LocationProtocol.readData
  grow_reader [Hytera.LocationProtocol.TriggeredReportAnswer.read_grows, Hytera.LocationProtocol.EmergencyReportStopRequest.read_grows, Hytera.LocationProtocol.ConditionQuickGpsRequest.read_grows, Hytera.LocationProtocol.ConditionReport.read_grows, Hytera.LocationProtocol.EmergencyReportStopAnswer.read_grows, Hytera.LocationProtocol.ConditionReportAnswer.read_grows, Hytera.LocationProtocol.StandardAnswer.read_grows, Hytera.LocationProtocol.StandardRequest.read_grows, Hytera.LocationProtocol.TriggeredReport.read_grows, Hytera.LocationProtocol.TriggeredReportStopAnswer.read_grows, Hytera.LocationProtocol.StandardAnswerWithRssi.read_grows, Hytera.LocationProtocol.ConditionReportWithRssi.read_grows, Hytera.LocationProtocol.TriggeredReportStopRequest.read_grows, Hytera.LocationProtocol.EmergencyReport.read_grows, Hytera.LocationProtocol.ConditionReportRequest.read_grows, Hytera.LocationProtocol.TriggeredReportRequest.read_grows, Hytera.LocationProtocol.ConditionQuickGpsAnswer.read_grows]

theorem Hytera.LocationProtocol.read_grows : Grows (Hytera.LocationProtocol.read) := by
  unfold Hytera.LocationProtocol.read
  grow_reader [Hytera.LocationProtocol.readData_grows _]

theorem Hytera.HyteraDmrApplicationProtocol.readData_grows (on : EnumVal HyteraDmrApplicationProtocol.MessageHeaderTypes) : Grows (Hytera.HyteraDmrApplicationProtocol.readData on) := by
  unfold Hytera.HyteraDmrApplicationProtocol.readData
  grow_reader [Hytera.RadioRegistrationService.read_grows, Hytera.TelemetryProtocol.read_grows, Hytera.RadioControlProtocol.read_grows, Hytera.TextMessageProtocol.read_grows, Hytera.DataDeliveryStates.read_grows, Hytera.LocationProtocol.read_grows, Hytera.DataTransmitProtocol.read_grows]

theorem Hytera.HyteraDmrApplicationProtocol.read_grows : Grows (Hytera.HyteraDmrApplicationProtocol.read) := by
  unfold Hytera.HyteraDmrApplicationProtocol.read
  grow_reader [Hytera.HyteraDmrApplicationProtocol.readData_grows _]

theorem Hytera.HyteraRadioNetworkProtocol.read_grows : Grows (Hytera.HyteraRadioNetworkProtocol.read) := by
  unfold Hytera.HyteraRadioNetworkProtocol.read
  grow_reader [Hytera.HyteraDmrApplicationProtocol.read_grows]

theorem Hytera.HyteraSimpleTransportReliabilityProtocol.Option.read_grows : Grows (Hytera.HyteraSimpleTransportReliabilityProtocol.Option.read) := by
  unfold Hytera.HyteraSimpleTransportReliabilityProtocol.Option.read
  grow_reader []

theorem Hytera.IpSiteConnectHeartbeat.Keepalive.read_grows : Grows (Hytera.IpSiteConnectHeartbeat.Keepalive.read) := by
  unfold Hytera.IpSiteConnectHeartbeat.Keepalive.read
  grow_reader []

theorem Hytera.IpSiteConnectHeartbeat.PingPong.read_grows : Grows (Hytera.IpSiteConnectHeartbeat.PingPong.read) := by
  unfold Hytera.IpSiteConnectHeartbeat.PingPong.read
  grow_reader []

theorem Hytera.LocationProtocol.computeOpcode_grows : Grows (Hytera.LocationProtocol.computeOpcode) := by
  unfold Hytera.LocationProtocol.computeOpcode
  grow_reader []

theorem Hytera.RadioId.read_grows : Grows (Hytera.RadioId.read) := by
  unfold Hytera.RadioId.read
  grow_reader []

theorem Hytera.RealTimeTransportProtocol.FixedHeader.read_grows : Grows (Hytera.RealTimeTransportProtocol.FixedHeader.read) := by
  unfold Hytera.RealTimeTransportProtocol.FixedHeader.read
  grow_reader []

theorem Hytera.RealTimeTransportProtocol.HeaderExtension.read_grows : Grows (Hytera.RealTimeTransportProtocol.HeaderExtension.read) := by
  unfold Hytera.RealTimeTransportProtocol.HeaderExtension.read
  grow_reader [Hytera.RadioId.read_grows]

theorem Motorola.AutomaticRegistrationService.MessageHeaderBits.read_grows : Grows (Motorola.AutomaticRegistrationService.MessageHeaderBits.read) := by
  unfold Motorola.AutomaticRegistrationService.MessageHeaderBits.read
  grow_reader []

theorem Motorola.AutomaticRegistrationService.DeviceRegistrationAcknowledgementHeader.read_grows : Grows (Motorola.AutomaticRegistrationService.DeviceRegistrationAcknowledgementHeader.read) := by
  unfold Motorola.AutomaticRegistrationService.DeviceRegistrationAcknowledgementHeader.read
  grow_reader []

theorem Motorola.AutomaticRegistrationService.DeviceRegistrationAcknowledgementFailureReason.read_grows : Grows (Motorola.AutomaticRegistrationService.DeviceRegistrationAcknowledgementFailureReason.read) := by
  unfold Motorola.AutomaticRegistrationService.DeviceRegistrationAcknowledgementFailureReason.read
  grow_reader []

theorem Motorola.AutomaticRegistrationService.AcknowledgementMessage.read_grows (root_message_header : AutomaticRegistrationService.MessageHeaderBits) : Grows (Motorola.AutomaticRegistrationService.AcknowledgementMessage.read root_message_header) := by
  unfold Motorola.AutomaticRegistrationService.AcknowledgementMessage.read
  grow_reader [Motorola.AutomaticRegistrationService.DeviceRegistrationAcknowledgementHeader.read_grows, Motorola.AutomaticRegistrationService.DeviceRegistrationAcknowledgementFailureReason.read_grows]

theorem Motorola.AutomaticRegistrationService.DeviceRegistrationMessageHeader.read_grows : Grows (Motorola.AutomaticRegistrationService.DeviceRegistrationMessageHeader.read) := by
  unfold Motorola.AutomaticRegistrationService.DeviceRegistrationMessageHeader.read
  grow_reader []

theorem Motorola.AutomaticRegistrationService.DeviceDeregistrationMessage.read_grows : Grows (Motorola.AutomaticRegistrationService.DeviceDeregistrationMessage.read) := by
  unfold Motorola.AutomaticRegistrationService.DeviceDeregistrationMessage.read
  grow_reader []

theorem Motorola.AutomaticRegistrationService.DeviceRegistrationMessage.read_grows (root_message_header : AutomaticRegistrationService.MessageHeaderBits) : Grows (Motorola.AutomaticRegistrationService.DeviceRegistrationMessage.read root_message_header) := by
  unfold Motorola.AutomaticRegistrationService.DeviceRegistrationMessage.read
  grow_reader [Motorola.AutomaticRegistrationService.DeviceRegistrationMessageHeader.read_grows]

theorem Motorola.AutomaticRegistrationService.ArsQueryMessage.read_grows : Grows (Motorola.AutomaticRegistrationService.ArsQueryMessage.read) := by
  unfold Motorola.AutomaticRegistrationService.ArsQueryMessage.read
  grow_reader []

theorem Motorola.AutomaticRegistrationService.readPduContent_grows (on : Nat) (message_header : AutomaticRegistrationService.MessageHeaderBits) : Grows (Motorola.AutomaticRegistrationService.readPduContent on message_header) := by
  unfold Motorola.AutomaticRegistrationService.readPduContent
  grow_reader [Motorola.AutomaticRegistrationService.DeviceRegistrationMessage.read_grows _, Motorola.AutomaticRegistrationService.DeviceDeregistrationMessage.read_grows, Motorola.AutomaticRegistrationService.ArsQueryMessage.read_grows, Motorola.AutomaticRegistrationService.AcknowledgementMessage.read_grows _]

theorem Motorola.MotorolaBinaryXml.OpaqueElementValue.read_grows : Grows (Motorola.MotorolaBinaryXml.OpaqueElementValue.read) := by
  unfold Motorola.MotorolaBinaryXml.OpaqueElementValue.read
  grow_reader []

theorem Motorola.MotorolaBinaryXml.Opaque1byteValue.read_grows : Grows (Motorola.MotorolaBinaryXml.Opaque1byteValue.read) := by
  unfold Motorola.MotorolaBinaryXml.Opaque1byteValue.read
  grow_reader []

theorem Motorola.MotorolaBinaryXml.Opaque3byteValue.read_grows : Grows (Motorola.MotorolaBinaryXml.Opaque3byteValue.read) := by
  unfold Motorola.MotorolaBinaryXml.Opaque3byteValue.read
  grow_reader []

theorem Motorola.MotorolaBinaryXml.Opaque5byteValue.read_grows : Grows (Motorola.MotorolaBinaryXml.Opaque5byteValue.read) := by
  unfold Motorola.MotorolaBinaryXml.Opaque5byteValue.read
  grow_reader []

theorem Motorola.MotorolaBinaryXml.Opaque2byteValue.read_grows : Grows (Motorola.MotorolaBinaryXml.Opaque2byteValue.read) := by
  unfold Motorola.MotorolaBinaryXml.Opaque2byteValue.read
  grow_reader []

theorem Motorola.MotorolaBinaryXml.Opaque4byteValue.read_grows : Grows (Motorola.MotorolaBinaryXml.Opaque4byteValue.read) := by
  unfold Motorola.MotorolaBinaryXml.Opaque4byteValue.read
  grow_reader []

theorem Motorola.TextMessageProtocol.MessageHeaderBits.read_grows : Grows (Motorola.TextMessageProtocol.MessageHeaderBits.read) := by
  unfold Motorola.TextMessageProtocol.MessageHeaderBits.read
  grow_reader []

theorem Motorola.TextMessageProtocol.TextMessageHeaderSequenceAndEncoding.read_grows : Grows (Motorola.TextMessageProtocol.TextMessageHeaderSequenceAndEncoding.read) := by
  unfold Motorola.TextMessageProtocol.TextMessageHeaderSequenceAndEncoding.read
  grow_reader []

theorem Motorola.TextMessageProtocol.TmsServiceAvailabilityHeader.read_grows : Grows (Motorola.TextMessageProtocol.TmsServiceAvailabilityHeader.read) := by
  unfold Motorola.TextMessageProtocol.TmsServiceAvailabilityHeader.read
  grow_reader []

theorem Motorola.TextMessageProtocol.TmsServiceAvailability.read_grows (root_message_header : TextMessageProtocol.MessageHeaderBits) : Grows (Motorola.TextMessageProtocol.TmsServiceAvailability.read root_message_header) := by
  unfold Motorola.TextMessageProtocol.TmsServiceAvailability.read
  grow_reader [Motorola.TextMessageProtocol.TmsServiceAvailabilityHeader.read_grows]

theorem Motorola.TextMessageProtocol.TmsAcknowledgementHeaderSequenceNumber.read_grows : Grows (Motorola.TextMessageProtocol.TmsAcknowledgementHeaderSequenceNumber.read) := by
  unfold Motorola.TextMessageProtocol.TmsAcknowledgementHeaderSequenceNumber.read
  grow_reader []

theorem Motorola.TextMessageProtocol.TmsAcknowledgement.read_grows (root_message_header : TextMessageProtocol.MessageHeaderBits) : Grows (Motorola.TextMessageProtocol.TmsAcknowledgement.read root_message_header) := by
  unfold Motorola.TextMessageProtocol.TmsAcknowledgement.read
  grow_reader [Motorola.TextMessageProtocol.TmsAcknowledgementHeaderSequenceNumber.read_grows]

theorem Motorola.TextMessageProtocol.TmsServiceAvailabilityAcknowledgement.read_grows : Grows (Motorola.TextMessageProtocol.TmsServiceAvailabilityAcknowledgement.read) := by
  unfold Motorola.TextMessageProtocol.TmsServiceAvailabilityAcknowledgement.read
  grow_reader []

theorem sequentialDecoders_grow : ∀ d ∈ sequentialDecoders, Grows d.read := by
  unfold sequentialDecoders
  refine List.forall_mem_cons.mpr ⟨Etsi.DmrCsbk.NegativeAckResponseData.read_grows, ?_⟩
  refine List.forall_mem_cons.mpr ⟨Etsi.DmrCsbk.ServiceOptions.read_grows, ?_⟩
  refine List.forall_mem_cons.mpr ⟨Etsi.DmrCsbk.UnitToUnitVoiceRequestData.read_grows, ?_⟩
  refine List.forall_mem_cons.mpr ⟨Etsi.DmrCsbk.PreambleData.read_grows, ?_⟩
  refine List.forall_mem_cons.mpr ⟨Etsi.DmrCsbk.ChannelTimingData.read_grows, ?_⟩
  refine List.forall_mem_cons.mpr ⟨Etsi.DmrCsbk.BsOutboundActivationData.read_grows, ?_⟩
  refine List.forall_mem_cons.mpr ⟨Etsi.DmrCsbk.UnitToUnitVoiceAnswerData.read_grows, ?_⟩
  refine List.forall_mem_cons.mpr ⟨Etsi.DmrCsbk.read_grows, ?_⟩
  refine List.forall_mem_cons.mpr ⟨Etsi.DmrData.Rate1LastBlockUnconfirmed.read_grows, ?_⟩
  refine List.forall_mem_cons.mpr ⟨Etsi.DmrData.Rate12LastBlockConfirmed.read_grows, ?_⟩
  refine List.forall_mem_cons.mpr ⟨Etsi.DmrData.Rate12Confirmed.read_grows, ?_⟩
  refine List.forall_mem_cons.mpr ⟨Etsi.DmrData.Rate34LastBlockUnconfirmed.read_grows, ?_⟩
  refine List.forall_mem_cons.mpr ⟨Etsi.DmrData.Rate1LastBlockConfirmed.read_grows, ?_⟩
  refine List.forall_mem_cons.mpr ⟨Etsi.DmrData.Rate1Unconfirmed.read_grows, ?_⟩
  refine List.forall_mem_cons.mpr ⟨Etsi.DmrData.UdtLastBlock.read_grows, ?_⟩
  refine List.forall_mem_cons.mpr ⟨Etsi.DmrData.Rate34Confirmed.read_grows, ?_⟩
  refine List.forall_mem_cons.mpr ⟨Etsi.DmrData.Rate34LastBlockConfirmed.read_grows, ?_⟩
  refine List.forall_mem_cons.mpr ⟨Etsi.DmrData.Rate34Unconfirmed.read_grows, ?_⟩
  refine List.forall_mem_cons.mpr ⟨Etsi.DmrData.Rate12LastBlockUnconfirmed.read_grows, ?_⟩
  refine List.forall_mem_cons.mpr ⟨Etsi.DmrData.Rate1Confirmed.read_grows, ?_⟩
  refine List.forall_mem_cons.mpr ⟨Etsi.DmrData.Rate12Unconfirmed.read_grows, ?_⟩
  refine List.forall_mem_cons.mpr ⟨Etsi.DmrData.read_grows, ?_⟩
  refine List.forall_mem_cons.mpr ⟨Etsi.DmrDataHeader.DataHeaderShortRaw.read_grows, ?_⟩
  refine List.forall_mem_cons.mpr ⟨Etsi.DmrDataHeader.DataHeaderProprietary.read_grows, ?_⟩
  refine List.forall_mem_cons.mpr ⟨Etsi.DmrDataHeader.DataHeaderShortStatusPrecoded.read_grows, ?_⟩
  refine List.forall_mem_cons.mpr ⟨Etsi.DmrDataHeader.DataHeaderResponse.read_grows, ?_⟩
  refine List.forall_mem_cons.mpr ⟨Etsi.DmrDataHeader.DataHeaderConfirmed.read_grows, ?_⟩
  refine List.forall_mem_cons.mpr ⟨Etsi.DmrDataHeader.DataHeaderUnconfirmed.read_grows, ?_⟩
  refine List.forall_mem_cons.mpr ⟨Etsi.DmrDataHeader.DataHeaderShortDefined.read_grows, ?_⟩
  refine List.forall_mem_cons.mpr ⟨Etsi.DmrDataHeader.DataHeaderUdt.read_grows, ?_⟩
  refine List.forall_mem_cons.mpr ⟨Etsi.DmrDataHeader.read_grows, ?_⟩
  refine List.forall_mem_cons.mpr ⟨Etsi.DmrIpUdp.read_grows, ?_⟩
  refine List.forall_mem_cons.mpr ⟨Etsi.FullLinkControl.GpsInfoLcPdu.read_grows, ?_⟩
  refine List.forall_mem_cons.mpr ⟨Etsi.FullLinkControl.GroupVoiceChannelUser.read_grows, ?_⟩
  refine List.forall_mem_cons.mpr ⟨Etsi.FullLinkControl.UnitToUnitVoiceChannelUser.read_grows, ?_⟩
  refine List.forall_mem_cons.mpr ⟨Etsi.FullLinkControl.TalkerAliasHeader.read_grows, ?_⟩
  refine List.forall_mem_cons.mpr ⟨Etsi.FullLinkControl.TalkerAliasContinuation.read_grows, ?_⟩
  refine List.forall_mem_cons.mpr ⟨Homebrew.Homebrew2015.TypeMasterPing.read_grows, ?_⟩
  refine List.forall_mem_cons.mpr ⟨Homebrew.Homebrew2015.TypeRepeaterPong.read_grows, ?_⟩
  refine List.forall_mem_cons.mpr ⟨Homebrew.Homebrew2015.TypeRepeaterClosing.read_grows, ?_⟩
  refine List.forall_mem_cons.mpr ⟨Homebrew.Homebrew2015.TypeRepeaterLoginResponse.read_grows, ?_⟩
  refine List.forall_mem_cons.mpr ⟨Homebrew.Homebrew2015.TypeRepeaterLoginRequest.read_grows, ?_⟩
  refine List.forall_mem_cons.mpr ⟨Homebrew.Homebrew2015.TypeMasterNotAccept.read_grows, ?_⟩
  refine List.forall_mem_cons.mpr ⟨Homebrew.Homebrew2015.TypeMasterClosing.read_grows, ?_⟩
  refine List.forall_mem_cons.mpr ⟨Homebrew.Mmdvm2020.TypeMasterPong.read_grows, ?_⟩
  refine List.forall_mem_cons.mpr ⟨Homebrew.Mmdvm2020.TypeRadioPosition.read_grows, ?_⟩
  refine List.forall_mem_cons.mpr ⟨Homebrew.Mmdvm2020.TypeTalkerAlias.read_grows, ?_⟩
  refine List.forall_mem_cons.mpr ⟨Homebrew.Mmdvm2020.TypeRepeaterClosing.read_grows, ?_⟩
  refine List.forall_mem_cons.mpr ⟨Homebrew.Mmdvm2020.TypeRepeaterLoginResponse.read_grows, ?_⟩
  refine List.forall_mem_cons.mpr ⟨Homebrew.Mmdvm2020.TypeRepeaterLoginRequest.read_grows, ?_⟩
  refine List.forall_mem_cons.mpr ⟨Homebrew.Mmdvm2020.TypeMasterNotAccept.read_grows, ?_⟩
  refine List.forall_mem_cons.mpr ⟨Homebrew.Mmdvm2020.TypeMasterRepeaterAck.read_grows, ?_⟩
  refine List.forall_mem_cons.mpr ⟨Homebrew.Mmdvm2020.TypeMasterClosing.read_grows, ?_⟩
  refine List.forall_mem_cons.mpr ⟨Homebrew.Mmdvm2020.TypeRepeaterBeacon.read_grows, ?_⟩
  refine List.forall_mem_cons.mpr ⟨Homebrew.Mmdvm2020.TypeRepeaterPing.read_grows, ?_⟩
  refine List.forall_mem_cons.mpr ⟨Hytera.RadioIp.read_grows, ?_⟩
  refine List.forall_mem_cons.mpr ⟨Hytera.DataDeliveryStates.read_grows, ?_⟩
  refine List.forall_mem_cons.mpr ⟨Hytera.DataTransmitProtocol.LastDataSlice.read_grows, ?_⟩
  refine List.forall_mem_cons.mpr ⟨Hytera.DataTransmitProtocol.DataSliceAnswer.read_grows, ?_⟩
  refine List.forall_mem_cons.mpr ⟨Hytera.DataTransmitProtocol.LastDataSliceAnswer.read_grows, ?_⟩
  refine List.forall_mem_cons.mpr ⟨Hytera.DataTransmitProtocol.DtpAnswer.read_grows, ?_⟩
  refine List.forall_mem_cons.mpr ⟨Hytera.DataTransmitProtocol.read_grows, ?_⟩
  refine List.forall_mem_cons.mpr ⟨Hytera.Datetimestring.read_grows, ?_⟩
  refine List.forall_mem_cons.mpr ⟨Hytera.Gpsdata.read_grows, ?_⟩
  refine List.forall_mem_cons.mpr ⟨Hytera.HyteraSimpleTransportReliabilityProtocol.Option.read_grows, ?_⟩
  refine List.forall_mem_cons.mpr ⟨Hytera.Intervalstring.read_grows, ?_⟩
  refine List.forall_mem_cons.mpr ⟨Hytera.IpSiteConnectHeartbeat.Keepalive.read_grows, ?_⟩
  refine List.forall_mem_cons.mpr ⟨Hytera.IpSiteConnectHeartbeat.PingPong.read_grows, ?_⟩
  refine List.forall_mem_cons.mpr ⟨Hytera.LocationProtocol.TriggeredReportStopAnswer.read_grows, ?_⟩
  refine List.forall_mem_cons.mpr ⟨Hytera.LocationProtocol.ConditionReportRequest.read_grows, ?_⟩
  refine List.forall_mem_cons.mpr ⟨Hytera.LocationProtocol.QuickGpsPayload.read_grows, ?_⟩
  refine List.forall_mem_cons.mpr ⟨Hytera.LocationProtocol.ConditionQuickGpsRequest.read_grows, ?_⟩
  refine List.forall_mem_cons.mpr ⟨Hytera.LocationProtocol.ConditionReport.read_grows, ?_⟩
  refine List.forall_mem_cons.mpr ⟨Hytera.LocationProtocol.EmergencyReport.read_grows, ?_⟩
  refine List.forall_mem_cons.mpr ⟨Hytera.LocationProtocol.TriggeredReportAnswer.read_grows, ?_⟩
  refine List.forall_mem_cons.mpr ⟨Hytera.LocationProtocol.StandardAnswerWithRssi.read_grows, ?_⟩
  refine List.forall_mem_cons.mpr ⟨Hytera.LocationProtocol.StandardRequest.read_grows, ?_⟩
  refine List.forall_mem_cons.mpr ⟨Hytera.LocationProtocol.TriggeredReportRequest.read_grows, ?_⟩
  refine List.forall_mem_cons.mpr ⟨Hytera.LocationProtocol.StandardAnswer.read_grows, ?_⟩
  refine List.forall_mem_cons.mpr ⟨Hytera.LocationProtocol.ConditionReportAnswer.read_grows, ?_⟩
  refine List.forall_mem_cons.mpr ⟨Hytera.LocationProtocol.EmergencyReportStopRequest.read_grows, ?_⟩
  refine List.forall_mem_cons.mpr ⟨Hytera.LocationProtocol.ConditionQuickGpsAnswer.read_grows, ?_⟩
  refine List.forall_mem_cons.mpr ⟨Hytera.LocationProtocol.TriggeredReport.read_grows, ?_⟩
  refine List.forall_mem_cons.mpr ⟨Hytera.LocationProtocol.ConditionReportWithRssi.read_grows, ?_⟩
  refine List.forall_mem_cons.mpr ⟨Hytera.LocationProtocol.EmergencyReportStopAnswer.read_grows, ?_⟩
  refine List.forall_mem_cons.mpr ⟨Hytera.LocationProtocol.TriggeredReportStopRequest.read_grows, ?_⟩
  refine List.forall_mem_cons.mpr ⟨Hytera.LocationProtocol.read_grows, ?_⟩
  refine List.forall_mem_cons.mpr ⟨Hytera.RadioControlProtocol.BroadcastStatusConfigurationReply.read_grows, ?_⟩
  refine List.forall_mem_cons.mpr ⟨Hytera.RadioControlProtocol.BroadcastConfiguration.read_grows, ?_⟩
  refine List.forall_mem_cons.mpr ⟨Hytera.RadioControlProtocol.BroadcastStatusConfigurationRequest.read_grows, ?_⟩
  refine List.forall_mem_cons.mpr ⟨Hytera.RadioControlProtocol.CallRequest.read_grows, ?_⟩
  refine List.forall_mem_cons.mpr ⟨Hytera.RadioControlProtocol.RemoveRadioReply.read_grows, ?_⟩
  refine List.forall_mem_cons.mpr ⟨Hytera.RadioControlProtocol.RemoveRadioRequest.read_grows, ?_⟩
  refine List.forall_mem_cons.mpr ⟨Hytera.RadioControlProtocol.CallReply.read_grows, ?_⟩
  refine List.forall_mem_cons.mpr ⟨Hytera.RadioControlProtocol.read_grows, ?_⟩
  refine List.forall_mem_cons.mpr ⟨Hytera.RadioId.read_grows, ?_⟩
  refine List.forall_mem_cons.mpr ⟨Hytera.RadioRegistrationService.read_grows, ?_⟩
  refine List.forall_mem_cons.mpr ⟨Hytera.RealTimeTransportProtocol.FixedHeader.read_grows, ?_⟩
  refine List.forall_mem_cons.mpr ⟨Hytera.RealTimeTransportProtocol.HeaderExtension.read_grows, ?_⟩
  refine List.forall_mem_cons.mpr ⟨Hytera.TelemetryProtocol.StandardStatusReport.read_grows, ?_⟩
  refine List.forall_mem_cons.mpr ⟨Hytera.TelemetryProtocol.VioExtendedStatus.read_grows, ?_⟩
  refine List.forall_mem_cons.mpr ⟨Hytera.TelemetryProtocol.RemoteControlAnswer.read_grows, ?_⟩
  refine List.forall_mem_cons.mpr ⟨Hytera.TelemetryProtocol.RemoteControlRequest.read_grows, ?_⟩
  refine List.forall_mem_cons.mpr ⟨Hytera.TelemetryProtocol.ExtendedStatusReport.read_grows, ?_⟩
  refine List.forall_mem_cons.mpr ⟨Hytera.TelemetryProtocol.StandardStatusRequest.read_grows, ?_⟩
  refine List.forall_mem_cons.mpr ⟨Hytera.TextMessageProtocol.read_grows, ?_⟩
  refine List.forall_mem_cons.mpr ⟨Motorola.AutomaticRegistrationService.MessageHeaderBits.read_grows, ?_⟩
  refine List.forall_mem_cons.mpr ⟨Motorola.AutomaticRegistrationService.DeviceRegistrationAcknowledgementHeader.read_grows, ?_⟩
  refine List.forall_mem_cons.mpr ⟨Motorola.AutomaticRegistrationService.DeviceRegistrationAcknowledgementFailureReason.read_grows, ?_⟩
  refine List.forall_mem_cons.mpr ⟨Motorola.AutomaticRegistrationService.DeviceRegistrationMessageHeader.read_grows, ?_⟩
  refine List.forall_mem_cons.mpr ⟨Motorola.AutomaticRegistrationService.DeviceDeregistrationMessage.read_grows, ?_⟩
  refine List.forall_mem_cons.mpr ⟨Motorola.AutomaticRegistrationService.ArsQueryMessage.read_grows, ?_⟩
  refine List.forall_mem_cons.mpr ⟨Motorola.MotorolaBinaryXml.OpaqueElementValue.read_grows, ?_⟩
  refine List.forall_mem_cons.mpr ⟨Motorola.MotorolaBinaryXml.Opaque1byteValue.read_grows, ?_⟩
  refine List.forall_mem_cons.mpr ⟨Motorola.MotorolaBinaryXml.Opaque3byteValue.read_grows, ?_⟩
  refine List.forall_mem_cons.mpr ⟨Motorola.MotorolaBinaryXml.Opaque5byteValue.read_grows, ?_⟩
  refine List.forall_mem_cons.mpr ⟨Motorola.MotorolaBinaryXml.Opaque2byteValue.read_grows, ?_⟩
  refine List.forall_mem_cons.mpr ⟨Motorola.MotorolaBinaryXml.Opaque4byteValue.read_grows, ?_⟩
  refine List.forall_mem_cons.mpr ⟨Motorola.TextMessageProtocol.MessageHeaderBits.read_grows, ?_⟩
  refine List.forall_mem_cons.mpr ⟨Motorola.TextMessageProtocol.TextMessageHeaderSequenceAndEncoding.read_grows, ?_⟩
  refine List.forall_mem_cons.mpr ⟨Motorola.TextMessageProtocol.TmsServiceAvailabilityHeader.read_grows, ?_⟩
  refine List.forall_mem_cons.mpr ⟨Motorola.TextMessageProtocol.TmsAcknowledgementHeaderSequenceNumber.read_grows, ?_⟩
  refine List.forall_mem_cons.mpr ⟨Motorola.TextMessageProtocol.TmsServiceAvailabilityAcknowledgement.read_grows, ?_⟩
  exact List.forall_mem_nil _

end Dmr
