import Verif.Shift
import Verif.Model.Etsi.DmrCsbk
import Verif.Model.Etsi.DmrData
import Verif.Model.Etsi.DmrDataHeader
import Verif.Model.Etsi.DmrIpUdp
import Verif.Model.Etsi.FullLinkControl
import Verif.Model.Homebrew.Homebrew2015
import Verif.Model.Homebrew.Mmdvm2020
import Verif.Model.Hytera.DataDeliveryStates
import Verif.Model.Hytera.DataTransmitProtocol
import Verif.Model.Hytera.Datetimestring
import Verif.Model.Hytera.Gpsdata
import Verif.Model.Hytera.HyteraDmrApplicationProtocol
import Verif.Model.Hytera.HyteraRadioNetworkProtocol
import Verif.Model.Hytera.HyteraSimpleTransportReliabilityProtocol
import Verif.Model.Hytera.Intervalstring
import Verif.Model.Hytera.IpSiteConnectHeartbeat
import Verif.Model.Hytera.IpSiteConnectProtocol
import Verif.Model.Hytera.LocationProtocol
import Verif.Model.Hytera.RadioControlProtocol
import Verif.Model.Hytera.RadioId
import Verif.Model.Hytera.RadioIp
import Verif.Model.Hytera.RadioRegistrationService
import Verif.Model.Hytera.RealTimeTransportProtocol
import Verif.Model.Hytera.TelemetryProtocol
import Verif.Model.Hytera.TextMessageProtocol
import Verif.Model.Motorola.AutomaticRegistrationService
import Verif.Model.Motorola.MotorolaBinaryXml
import Verif.Model.Motorola.MotorolaUtils
import Verif.Model.Motorola.TextMessageProtocol
import Verif.Model.Tools.Byteswap
import Verif.Model.Tools.Debug
import Verif.Model.Tools.Prettyprint
import Verif.Model.Tools.PyView
/-
`Shifts` for every decoder that does not look at the position or size of the stream, nor contains one that does
(generated by tools/mkshift.py). Not here: Etsi.FullLinkControl.read, Homebrew.Homebrew2015.TypeRepeaterConfigurationOrClosing.read, Homebrew.Homebrew2015.computeFifthLetter, Homebrew.Homebrew2015.read, Homebrew.Homebrew2015.readCommandData, Homebrew.Mmdvm2020.TypeRepeaterConfigurationOrClosing.read, Homebrew.Mmdvm2020.computeFifthLetter, Homebrew.Mmdvm2020.read, Homebrew.Mmdvm2020.readCommandData, Hytera.HyteraDmrApplicationProtocol.read, Hytera.HyteraDmrApplicationProtocol.readData, Hytera.HyteraRadioNetworkProtocol.read, Hytera.HyteraSimpleTransportReliabilityProtocol.read, Hytera.IpSiteConnectHeartbeat.read, Hytera.LocationProtocol.computeOpcode, Hytera.RealTimeTransportProtocol.read, Hytera.TelemetryProtocol.computeSpecificService, Hytera.TelemetryProtocol.read, Motorola.MotorolaBinaryXml.ConstantDataTableReference.read, Motorola.MotorolaBinaryXml.LrrpElement.read, Motorola.MotorolaBinaryXml.LrrpElement.readLrrpElementData, Motorola.MotorolaBinaryXml.LrrpImmediateRequestNcdt.read, Motorola.MotorolaBinaryXml.MbxmlDocument.read, Motorola.MotorolaBinaryXml.MbxmlDocument.readDocumentData, Motorola.MotorolaBinaryXml.Sfloatvar.read, Motorola.MotorolaBinaryXml.Sintvar.read, Motorola.MotorolaBinaryXml.Ufloatvar.read, Motorola.MotorolaBinaryXml.Uintvar.read, Motorola.MotorolaBinaryXml.read.
-/

set_option linter.unusedVariables false

namespace Dmr

theorem Etsi.DmrCsbk.NegativeAckResponseData.read_shifts : Shifts (Etsi.DmrCsbk.NegativeAckResponseData.read) := by
  unfold Etsi.DmrCsbk.NegativeAckResponseData.read
  shift_reader []

theorem Etsi.DmrCsbk.ServiceOptions.read_shifts : Shifts (Etsi.DmrCsbk.ServiceOptions.read) := by
  unfold Etsi.DmrCsbk.ServiceOptions.read
  shift_reader []

theorem Etsi.DmrCsbk.UnitToUnitVoiceRequestData.read_shifts : Shifts (Etsi.DmrCsbk.UnitToUnitVoiceRequestData.read) := by
  unfold Etsi.DmrCsbk.UnitToUnitVoiceRequestData.read
  shift_reader [Etsi.DmrCsbk.ServiceOptions.read_shifts]

theorem Etsi.DmrCsbk.PreambleData.read_shifts : Shifts (Etsi.DmrCsbk.PreambleData.read) := by
  unfold Etsi.DmrCsbk.PreambleData.read
  shift_reader []

theorem Etsi.DmrCsbk.ChannelTimingData.read_shifts : Shifts (Etsi.DmrCsbk.ChannelTimingData.read) := by
  unfold Etsi.DmrCsbk.ChannelTimingData.read
  shift_reader []

theorem Etsi.DmrCsbk.BsOutboundActivationData.read_shifts : Shifts (Etsi.DmrCsbk.BsOutboundActivationData.read) := by
  unfold Etsi.DmrCsbk.BsOutboundActivationData.read
  shift_reader []

theorem Etsi.DmrCsbk.UnitToUnitVoiceAnswerData.read_shifts : Shifts (Etsi.DmrCsbk.UnitToUnitVoiceAnswerData.read) := by
  unfold Etsi.DmrCsbk.UnitToUnitVoiceAnswerData.read
  shift_reader [Etsi.DmrCsbk.ServiceOptions.read_shifts]

theorem Etsi.DmrCsbk.readCsbkData_shifts (on : EnumVal DmrCsbk.CsbkoTypes) : Shifts (Etsi.DmrCsbk.readCsbkData on) := by
  unfold Etsi.DmrCsbk.readCsbkData
  shift_reader [Etsi.DmrCsbk.UnitToUnitVoiceAnswerData.read_shifts, Etsi.DmrCsbk.PreambleData.read_shifts, Etsi.DmrCsbk.ChannelTimingData.read_shifts, Etsi.DmrCsbk.UnitToUnitVoiceRequestData.read_shifts, Etsi.DmrCsbk.BsOutboundActivationData.read_shifts, Etsi.DmrCsbk.NegativeAckResponseData.read_shifts]

theorem Etsi.DmrCsbk.read_shifts : Shifts (Etsi.DmrCsbk.read) := by
  unfold Etsi.DmrCsbk.read
  shift_reader [Etsi.DmrCsbk.readCsbkData_shifts _]

theorem Etsi.DmrData.Rate1LastBlockUnconfirmed.read_shifts : Shifts (Etsi.DmrData.Rate1LastBlockUnconfirmed.read) := by
  unfold Etsi.DmrData.Rate1LastBlockUnconfirmed.read
  shift_reader []

theorem Etsi.DmrData.Rate12LastBlockConfirmed.read_shifts : Shifts (Etsi.DmrData.Rate12LastBlockConfirmed.read) := by
  unfold Etsi.DmrData.Rate12LastBlockConfirmed.read
  shift_reader []

theorem Etsi.DmrData.Rate12Confirmed.read_shifts : Shifts (Etsi.DmrData.Rate12Confirmed.read) := by
  unfold Etsi.DmrData.Rate12Confirmed.read
  shift_reader []

theorem Etsi.DmrData.Rate34LastBlockUnconfirmed.read_shifts : Shifts (Etsi.DmrData.Rate34LastBlockUnconfirmed.read) := by
  unfold Etsi.DmrData.Rate34LastBlockUnconfirmed.read
  shift_reader []

theorem Etsi.DmrData.Rate1LastBlockConfirmed.read_shifts : Shifts (Etsi.DmrData.Rate1LastBlockConfirmed.read) := by
  unfold Etsi.DmrData.Rate1LastBlockConfirmed.read
  shift_reader []

theorem Etsi.DmrData.Rate1Unconfirmed.read_shifts : Shifts (Etsi.DmrData.Rate1Unconfirmed.read) := by
  unfold Etsi.DmrData.Rate1Unconfirmed.read
  shift_reader []

theorem Etsi.DmrData.UdtLastBlock.read_shifts : Shifts (Etsi.DmrData.UdtLastBlock.read) := by
  unfold Etsi.DmrData.UdtLastBlock.read
  shift_reader []

theorem Etsi.DmrData.Rate34Confirmed.read_shifts : Shifts (Etsi.DmrData.Rate34Confirmed.read) := by
  unfold Etsi.DmrData.Rate34Confirmed.read
  shift_reader []

theorem Etsi.DmrData.Rate34LastBlockConfirmed.read_shifts : Shifts (Etsi.DmrData.Rate34LastBlockConfirmed.read) := by
  unfold Etsi.DmrData.Rate34LastBlockConfirmed.read
  shift_reader []

theorem Etsi.DmrData.Rate34Unconfirmed.read_shifts : Shifts (Etsi.DmrData.Rate34Unconfirmed.read) := by
  unfold Etsi.DmrData.Rate34Unconfirmed.read
  shift_reader []

theorem Etsi.DmrData.Rate12LastBlockUnconfirmed.read_shifts : Shifts (Etsi.DmrData.Rate12LastBlockUnconfirmed.read) := by
  unfold Etsi.DmrData.Rate12LastBlockUnconfirmed.read
  shift_reader []

theorem Etsi.DmrData.Rate1Confirmed.read_shifts : Shifts (Etsi.DmrData.Rate1Confirmed.read) := by
  unfold Etsi.DmrData.Rate1Confirmed.read
  shift_reader []

theorem Etsi.DmrData.Rate12Unconfirmed.read_shifts : Shifts (Etsi.DmrData.Rate12Unconfirmed.read) := by
  unfold Etsi.DmrData.Rate12Unconfirmed.read
  shift_reader []

theorem Etsi.DmrData.read_shifts : Shifts (Etsi.DmrData.read) := by
  unfold Etsi.DmrData.read
  shift_reader []

theorem Etsi.DmrDataHeader.DataHeaderShortRaw.read_shifts : Shifts (Etsi.DmrDataHeader.DataHeaderShortRaw.read) := by
  unfold Etsi.DmrDataHeader.DataHeaderShortRaw.read
  shift_reader []

theorem Etsi.DmrDataHeader.DataHeaderProprietary.read_shifts : Shifts (Etsi.DmrDataHeader.DataHeaderProprietary.read) := by
  unfold Etsi.DmrDataHeader.DataHeaderProprietary.read
  shift_reader []

theorem Etsi.DmrDataHeader.DataHeaderUndefined.read_shifts : Shifts (Etsi.DmrDataHeader.DataHeaderUndefined.read) := by
  unfold Etsi.DmrDataHeader.DataHeaderUndefined.read
  shift_reader []

theorem Etsi.DmrDataHeader.DataHeaderShortStatusPrecoded.read_shifts : Shifts (Etsi.DmrDataHeader.DataHeaderShortStatusPrecoded.read) := by
  unfold Etsi.DmrDataHeader.DataHeaderShortStatusPrecoded.read
  shift_reader []

theorem Etsi.DmrDataHeader.DataHeaderResponse.read_shifts : Shifts (Etsi.DmrDataHeader.DataHeaderResponse.read) := by
  unfold Etsi.DmrDataHeader.DataHeaderResponse.read
  shift_reader []

theorem Etsi.DmrDataHeader.DataHeaderConfirmed.read_shifts : Shifts (Etsi.DmrDataHeader.DataHeaderConfirmed.read) := by
  unfold Etsi.DmrDataHeader.DataHeaderConfirmed.read
  shift_reader []

theorem Etsi.DmrDataHeader.DataHeaderUnconfirmed.read_shifts : Shifts (Etsi.DmrDataHeader.DataHeaderUnconfirmed.read) := by
  unfold Etsi.DmrDataHeader.DataHeaderUnconfirmed.read
  shift_reader []

theorem Etsi.DmrDataHeader.DataHeaderShortDefined.read_shifts : Shifts (Etsi.DmrDataHeader.DataHeaderShortDefined.read) := by
  unfold Etsi.DmrDataHeader.DataHeaderShortDefined.read
  shift_reader []

theorem Etsi.DmrDataHeader.DataHeaderUdt.read_shifts : Shifts (Etsi.DmrDataHeader.DataHeaderUdt.read) := by
  unfold Etsi.DmrDataHeader.DataHeaderUdt.read
  shift_reader []

theorem Etsi.DmrDataHeader.read_shifts : Shifts (Etsi.DmrDataHeader.read) := by
  unfold Etsi.DmrDataHeader.read
  shift_reader []

theorem Etsi.DmrDataHeader.readDataBody_shifts (on : EnumVal DmrDataHeader.DataPacketFormats) : Shifts (Etsi.DmrDataHeader.readDataBody on) := by
  unfold Etsi.DmrDataHeader.readDataBody
  shift_reader [Etsi.DmrDataHeader.DataHeaderProprietary.read_shifts, Etsi.DmrDataHeader.DataHeaderShortDefined.read_shifts, Etsi.DmrDataHeader.DataHeaderUnconfirmed.read_shifts, Etsi.DmrDataHeader.DataHeaderConfirmed.read_shifts, Etsi.DmrDataHeader.DataHeaderUdt.read_shifts, Etsi.DmrDataHeader.DataHeaderShortStatusPrecoded.read_shifts, Etsi.DmrDataHeader.DataHeaderResponse.read_shifts, Etsi.DmrDataHeader.DataHeaderUndefined.read_shifts]

theorem Etsi.DmrIpUdp.UdpIpv4CompressedHeader.read_shifts : Shifts (Etsi.DmrIpUdp.UdpIpv4CompressedHeader.read) := by
  unfold Etsi.DmrIpUdp.UdpIpv4CompressedHeader.read
  shift_reader []

theorem Etsi.DmrIpUdp.read_shifts : Shifts (Etsi.DmrIpUdp.read) := by
  unfold Etsi.DmrIpUdp.read
  shift_reader []

theorem Etsi.FullLinkControl.GpsInfoLcPdu.read_shifts : Shifts (Etsi.FullLinkControl.GpsInfoLcPdu.read) := by
  unfold Etsi.FullLinkControl.GpsInfoLcPdu.read
  shift_reader []

theorem Etsi.FullLinkControl.GroupVoiceChannelUser.read_shifts : Shifts (Etsi.FullLinkControl.GroupVoiceChannelUser.read) := by
  unfold Etsi.FullLinkControl.GroupVoiceChannelUser.read
  shift_reader []

theorem Etsi.FullLinkControl.UnitToUnitVoiceChannelUser.read_shifts : Shifts (Etsi.FullLinkControl.UnitToUnitVoiceChannelUser.read) := by
  unfold Etsi.FullLinkControl.UnitToUnitVoiceChannelUser.read
  shift_reader []

theorem Etsi.FullLinkControl.TalkerAliasHeader.read_shifts : Shifts (Etsi.FullLinkControl.TalkerAliasHeader.read) := by
  unfold Etsi.FullLinkControl.TalkerAliasHeader.read
  shift_reader []

theorem Etsi.FullLinkControl.TalkerAliasContinuation.read_shifts : Shifts (Etsi.FullLinkControl.TalkerAliasContinuation.read) := by
  unfold Etsi.FullLinkControl.TalkerAliasContinuation.read
  shift_reader []

theorem Etsi.FullLinkControl.readSpecificData_shifts (on : EnumVal FullLinkControl.Flcos) : Shifts (Etsi.FullLinkControl.readSpecificData on) := by
  unfold Etsi.FullLinkControl.readSpecificData
  shift_reader [Etsi.FullLinkControl.TalkerAliasHeader.read_shifts, Etsi.FullLinkControl.UnitToUnitVoiceChannelUser.read_shifts, Etsi.FullLinkControl.GroupVoiceChannelUser.read_shifts, Etsi.FullLinkControl.TalkerAliasContinuation.read_shifts, Etsi.FullLinkControl.GpsInfoLcPdu.read_shifts]

theorem Homebrew.Homebrew2015.TypeMasterPing.read_shifts : Shifts (Homebrew.Homebrew2015.TypeMasterPing.read) := by
  unfold Homebrew.Homebrew2015.TypeMasterPing.read
  shift_reader []

theorem Homebrew.Homebrew2015.TypeRepeaterPong.read_shifts : Shifts (Homebrew.Homebrew2015.TypeRepeaterPong.read) := by
  unfold Homebrew.Homebrew2015.TypeRepeaterPong.read
  shift_reader []

theorem Homebrew.Homebrew2015.TypeRepeaterClosing.read_shifts : Shifts (Homebrew.Homebrew2015.TypeRepeaterClosing.read) := by
  unfold Homebrew.Homebrew2015.TypeRepeaterClosing.read
  shift_reader []

theorem Homebrew.Homebrew2015.TypeRepeaterConfiguration.read_shifts : Shifts (Homebrew.Homebrew2015.TypeRepeaterConfiguration.read) := by
  unfold Homebrew.Homebrew2015.TypeRepeaterConfiguration.read
  shift_reader []

theorem Homebrew.Homebrew2015.TypeRepeaterConfigurationOrClosing.readData_shifts (on : PyStr) : Shifts (Homebrew.Homebrew2015.TypeRepeaterConfigurationOrClosing.readData on) := by
  unfold Homebrew.Homebrew2015.TypeRepeaterConfigurationOrClosing.readData
  shift_reader [Homebrew.Homebrew2015.TypeRepeaterClosing.read_shifts, Homebrew.Homebrew2015.TypeRepeaterConfiguration.read_shifts]

theorem Homebrew.Homebrew2015.TypeRepeaterLoginResponse.read_shifts : Shifts (Homebrew.Homebrew2015.TypeRepeaterLoginResponse.read) := by
  unfold Homebrew.Homebrew2015.TypeRepeaterLoginResponse.read
  shift_reader []

theorem Homebrew.Homebrew2015.TypeRepeaterLoginRequest.read_shifts : Shifts (Homebrew.Homebrew2015.TypeRepeaterLoginRequest.read) := by
  unfold Homebrew.Homebrew2015.TypeRepeaterLoginRequest.read
  shift_reader []

theorem Homebrew.Homebrew2015.TypeMasterNotAccept.read_shifts : Shifts (Homebrew.Homebrew2015.TypeMasterNotAccept.read) := by
  unfold Homebrew.Homebrew2015.TypeMasterNotAccept.read
  shift_reader []

theorem Homebrew.Homebrew2015.TypeMasterRepeaterAck.read_shifts : Shifts (Homebrew.Homebrew2015.TypeMasterRepeaterAck.read) := by
  unfold Homebrew.Homebrew2015.TypeMasterRepeaterAck.read
  shift_reader []

theorem Homebrew.Homebrew2015.TypeMasterClosing.read_shifts : Shifts (Homebrew.Homebrew2015.TypeMasterClosing.read) := by
  unfold Homebrew.Homebrew2015.TypeMasterClosing.read
  shift_reader []

theorem Homebrew.Homebrew2015.TypeDmrData.read_shifts : Shifts (Homebrew.Homebrew2015.TypeDmrData.read) := by
  unfold Homebrew.Homebrew2015.TypeDmrData.read
  shift_reader []

theorem Homebrew.Homebrew2015.TypeRepeaterOptions.read_shifts : Shifts (Homebrew.Homebrew2015.TypeRepeaterOptions.read) := by
  unfold Homebrew.Homebrew2015.TypeRepeaterOptions.read
  shift_reader []

theorem Homebrew.Mmdvm2020.TypeMasterPong.read_shifts : Shifts (Homebrew.Mmdvm2020.TypeMasterPong.read) := by
  unfold Homebrew.Mmdvm2020.TypeMasterPong.read
  shift_reader []

theorem Homebrew.Mmdvm2020.TypeRadioPosition.read_shifts : Shifts (Homebrew.Mmdvm2020.TypeRadioPosition.read) := by
  unfold Homebrew.Mmdvm2020.TypeRadioPosition.read
  shift_reader []

theorem Homebrew.Mmdvm2020.TypeTalkerAlias.read_shifts : Shifts (Homebrew.Mmdvm2020.TypeTalkerAlias.read) := by
  unfold Homebrew.Mmdvm2020.TypeTalkerAlias.read
  shift_reader []

theorem Homebrew.Mmdvm2020.TypeRepeaterClosing.read_shifts : Shifts (Homebrew.Mmdvm2020.TypeRepeaterClosing.read) := by
  unfold Homebrew.Mmdvm2020.TypeRepeaterClosing.read
  shift_reader []

theorem Homebrew.Mmdvm2020.TypeRepeaterConfiguration.read_shifts : Shifts (Homebrew.Mmdvm2020.TypeRepeaterConfiguration.read) := by
  unfold Homebrew.Mmdvm2020.TypeRepeaterConfiguration.read
  shift_reader []

theorem Homebrew.Mmdvm2020.TypeRepeaterConfigurationOrClosing.readData_shifts (on : PyStr) : Shifts (Homebrew.Mmdvm2020.TypeRepeaterConfigurationOrClosing.readData on) := by
  unfold Homebrew.Mmdvm2020.TypeRepeaterConfigurationOrClosing.readData
  shift_reader [Homebrew.Mmdvm2020.TypeRepeaterClosing.read_shifts, Homebrew.Mmdvm2020.TypeRepeaterConfiguration.read_shifts]

theorem Homebrew.Mmdvm2020.TypeRepeaterLoginResponse.read_shifts : Shifts (Homebrew.Mmdvm2020.TypeRepeaterLoginResponse.read) := by
  unfold Homebrew.Mmdvm2020.TypeRepeaterLoginResponse.read
  shift_reader []

theorem Homebrew.Mmdvm2020.TypeRepeaterLoginRequest.read_shifts : Shifts (Homebrew.Mmdvm2020.TypeRepeaterLoginRequest.read) := by
  unfold Homebrew.Mmdvm2020.TypeRepeaterLoginRequest.read
  shift_reader []

theorem Homebrew.Mmdvm2020.TypeMasterNotAccept.read_shifts : Shifts (Homebrew.Mmdvm2020.TypeMasterNotAccept.read) := by
  unfold Homebrew.Mmdvm2020.TypeMasterNotAccept.read
  shift_reader []

theorem Homebrew.Mmdvm2020.TypeUnknown.read_shifts : Shifts (Homebrew.Mmdvm2020.TypeUnknown.read) := by
  unfold Homebrew.Mmdvm2020.TypeUnknown.read
  shift_reader []

theorem Homebrew.Mmdvm2020.TypeMasterRepeaterAck.read_shifts : Shifts (Homebrew.Mmdvm2020.TypeMasterRepeaterAck.read) := by
  unfold Homebrew.Mmdvm2020.TypeMasterRepeaterAck.read
  shift_reader []

theorem Homebrew.Mmdvm2020.TypeMasterClosing.read_shifts : Shifts (Homebrew.Mmdvm2020.TypeMasterClosing.read) := by
  unfold Homebrew.Mmdvm2020.TypeMasterClosing.read
  shift_reader []

theorem Homebrew.Mmdvm2020.TypeDmrData.read_shifts : Shifts (Homebrew.Mmdvm2020.TypeDmrData.read) := by
  unfold Homebrew.Mmdvm2020.TypeDmrData.read
  shift_reader []

theorem Homebrew.Mmdvm2020.TypeRepeaterBeacon.read_shifts : Shifts (Homebrew.Mmdvm2020.TypeRepeaterBeacon.read) := by
  unfold Homebrew.Mmdvm2020.TypeRepeaterBeacon.read
  shift_reader []

theorem Homebrew.Mmdvm2020.TypeRepeaterOptions.read_shifts : Shifts (Homebrew.Mmdvm2020.TypeRepeaterOptions.read) := by
  unfold Homebrew.Mmdvm2020.TypeRepeaterOptions.read
  shift_reader []

theorem Homebrew.Mmdvm2020.TypeRepeaterPing.read_shifts : Shifts (Homebrew.Mmdvm2020.TypeRepeaterPing.read) := by
  unfold Homebrew.Mmdvm2020.TypeRepeaterPing.read
  shift_reader []

theorem Hytera.RadioIp.read_shifts : Shifts (Hytera.RadioIp.read) := by
  unfold Hytera.RadioIp.read
  shift_reader []

theorem Hytera.DataDeliveryStates.read_shifts : Shifts (Hytera.DataDeliveryStates.read) := by
  unfold Hytera.DataDeliveryStates.read
  shift_reader [Hytera.RadioIp.read_shifts]

theorem Hytera.DataTransmitProtocol.LastDataSlice.read_shifts : Shifts (Hytera.DataTransmitProtocol.LastDataSlice.read) := by
  unfold Hytera.DataTransmitProtocol.LastDataSlice.read
  shift_reader [Hytera.RadioIp.read_shifts]

theorem Hytera.DataTransmitProtocol.DtpRequest.read_shifts (parent_message_length : Nat) : Shifts (Hytera.DataTransmitProtocol.DtpRequest.read parent_message_length) := by
  unfold Hytera.DataTransmitProtocol.DtpRequest.read
  shift_reader [Hytera.RadioIp.read_shifts]

theorem Hytera.DataTransmitProtocol.DataSliceAnswer.read_shifts : Shifts (Hytera.DataTransmitProtocol.DataSliceAnswer.read) := by
  unfold Hytera.DataTransmitProtocol.DataSliceAnswer.read
  shift_reader [Hytera.RadioIp.read_shifts]

theorem Hytera.DataTransmitProtocol.DataSliceTransmit.read_shifts (parent_message_length : Nat) : Shifts (Hytera.DataTransmitProtocol.DataSliceTransmit.read parent_message_length) := by
  unfold Hytera.DataTransmitProtocol.DataSliceTransmit.read
  shift_reader [Hytera.RadioIp.read_shifts]

theorem Hytera.DataTransmitProtocol.LastDataSliceAnswer.read_shifts : Shifts (Hytera.DataTransmitProtocol.LastDataSliceAnswer.read) := by
  unfold Hytera.DataTransmitProtocol.LastDataSliceAnswer.read
  shift_reader [Hytera.RadioIp.read_shifts]

theorem Hytera.DataTransmitProtocol.DtpAnswer.read_shifts : Shifts (Hytera.DataTransmitProtocol.DtpAnswer.read) := by
  unfold Hytera.DataTransmitProtocol.DtpAnswer.read
  shift_reader [Hytera.RadioIp.read_shifts]

theorem Hytera.DataTransmitProtocol.readData_shifts (on : EnumVal DataTransmitProtocol.ServiceSpecificTypes) (message_length : Nat) : Shifts (Hytera.DataTransmitProtocol.readData on message_length) := by
  unfold Hytera.DataTransmitProtocol.readData
  shift_reader [Hytera.DataTransmitProtocol.DtpRequest.read_shifts _, Hytera.DataTransmitProtocol.DataSliceTransmit.read_shifts _, Hytera.DataTransmitProtocol.DataSliceAnswer.read_shifts, Hytera.DataTransmitProtocol.LastDataSliceAnswer.read_shifts, Hytera.DataTransmitProtocol.DtpAnswer.read_shifts, Hytera.DataTransmitProtocol.LastDataSlice.read_shifts]

theorem Hytera.DataTransmitProtocol.read_shifts : Shifts (Hytera.DataTransmitProtocol.read) := by
  unfold Hytera.DataTransmitProtocol.read
  shift_reader [Hytera.DataTransmitProtocol.readData_shifts _ _]

theorem Hytera.Datetimestring.read_shifts : Shifts (Hytera.Datetimestring.read) := by
  unfold Hytera.Datetimestring.read
  shift_reader []

theorem Hytera.Gpsdata.read_shifts : Shifts (Hytera.Gpsdata.read) := by
  unfold Hytera.Gpsdata.read
  shift_reader []

theorem Hytera.HyteraDmrApplicationProtocol.UndefinedProtocol.read_shifts : Shifts (Hytera.HyteraDmrApplicationProtocol.UndefinedProtocol.read) := by
  unfold Hytera.HyteraDmrApplicationProtocol.UndefinedProtocol.read
  shift_reader []

theorem Hytera.HyteraSimpleTransportReliabilityProtocol.Option.read_shifts : Shifts (Hytera.HyteraSimpleTransportReliabilityProtocol.Option.read) := by
  unfold Hytera.HyteraSimpleTransportReliabilityProtocol.Option.read
  shift_reader []

theorem Hytera.Intervalstring.read_shifts : Shifts (Hytera.Intervalstring.read) := by
  unfold Hytera.Intervalstring.read
  shift_reader []

theorem Hytera.IpSiteConnectHeartbeat.Keepalive.read_shifts : Shifts (Hytera.IpSiteConnectHeartbeat.Keepalive.read) := by
  unfold Hytera.IpSiteConnectHeartbeat.Keepalive.read
  shift_reader []

theorem Hytera.IpSiteConnectHeartbeat.PingPong.read_shifts : Shifts (Hytera.IpSiteConnectHeartbeat.PingPong.read) := by
  unfold Hytera.IpSiteConnectHeartbeat.PingPong.read
  shift_reader []

theorem Hytera.IpSiteConnectHeartbeat.Unknown.read_shifts : Shifts (Hytera.IpSiteConnectHeartbeat.Unknown.read) := by
  unfold Hytera.IpSiteConnectHeartbeat.Unknown.read
  shift_reader []

theorem Hytera.IpSiteConnectHeartbeat.readData_shifts (on : Nat) : Shifts (Hytera.IpSiteConnectHeartbeat.readData on) := by
  unfold Hytera.IpSiteConnectHeartbeat.readData
  shift_reader [Hytera.IpSiteConnectHeartbeat.Keepalive.read_shifts, Hytera.IpSiteConnectHeartbeat.PingPong.read_shifts, Hytera.IpSiteConnectHeartbeat.Unknown.read_shifts]

theorem Hytera.IpSiteConnectProtocol.read_shifts : Shifts (Hytera.IpSiteConnectProtocol.read) := by
  unfold Hytera.IpSiteConnectProtocol.read
  shift_reader []

theorem Hytera.LocationProtocol.TriggeredReportStopAnswer.read_shifts : Shifts (Hytera.LocationProtocol.TriggeredReportStopAnswer.read) := by
  unfold Hytera.LocationProtocol.TriggeredReportStopAnswer.read
  shift_reader [Hytera.RadioIp.read_shifts]

theorem Hytera.LocationProtocol.ConditionReportRequest.read_shifts : Shifts (Hytera.LocationProtocol.ConditionReportRequest.read) := by
  unfold Hytera.LocationProtocol.ConditionReportRequest.read
  shift_reader [Hytera.RadioIp.read_shifts, Hytera.Datetimestring.read_shifts, Hytera.Intervalstring.read_shifts]

theorem Hytera.LocationProtocol.QuickGpsPayload.read_shifts : Shifts (Hytera.LocationProtocol.QuickGpsPayload.read) := by
  unfold Hytera.LocationProtocol.QuickGpsPayload.read
  shift_reader [Hytera.Datetimestring.read_shifts, Hytera.Intervalstring.read_shifts]

theorem Hytera.LocationProtocol.ConditionQuickGpsRequest.read_shifts : Shifts (Hytera.LocationProtocol.ConditionQuickGpsRequest.read) := by
  unfold Hytera.LocationProtocol.ConditionQuickGpsRequest.read
  shift_reader [Hytera.RadioIp.read_shifts, Hytera.LocationProtocol.QuickGpsPayload.read_shifts]

theorem Hytera.LocationProtocol.ConditionReport.read_shifts : Shifts (Hytera.LocationProtocol.ConditionReport.read) := by
  unfold Hytera.LocationProtocol.ConditionReport.read
  shift_reader [Hytera.RadioIp.read_shifts, Hytera.Gpsdata.read_shifts]

theorem Hytera.LocationProtocol.EmergencyReport.read_shifts : Shifts (Hytera.LocationProtocol.EmergencyReport.read) := by
  unfold Hytera.LocationProtocol.EmergencyReport.read
  shift_reader [Hytera.RadioIp.read_shifts, Hytera.Gpsdata.read_shifts]

theorem Hytera.LocationProtocol.TriggeredReportAnswer.read_shifts : Shifts (Hytera.LocationProtocol.TriggeredReportAnswer.read) := by
  unfold Hytera.LocationProtocol.TriggeredReportAnswer.read
  shift_reader [Hytera.RadioIp.read_shifts]

theorem Hytera.LocationProtocol.StandardAnswerWithRssi.read_shifts : Shifts (Hytera.LocationProtocol.StandardAnswerWithRssi.read) := by
  unfold Hytera.LocationProtocol.StandardAnswerWithRssi.read
  shift_reader [Hytera.RadioIp.read_shifts, Hytera.Gpsdata.read_shifts]

theorem Hytera.LocationProtocol.StandardRequest.read_shifts : Shifts (Hytera.LocationProtocol.StandardRequest.read) := by
  unfold Hytera.LocationProtocol.StandardRequest.read
  shift_reader [Hytera.RadioIp.read_shifts]

theorem Hytera.LocationProtocol.TriggeredReportRequest.read_shifts : Shifts (Hytera.LocationProtocol.TriggeredReportRequest.read) := by
  unfold Hytera.LocationProtocol.TriggeredReportRequest.read
  shift_reader [Hytera.RadioIp.read_shifts, Hytera.Datetimestring.read_shifts, Hytera.Intervalstring.read_shifts]

theorem Hytera.LocationProtocol.StandardAnswer.read_shifts : Shifts (Hytera.LocationProtocol.StandardAnswer.read) := by
  unfold Hytera.LocationProtocol.StandardAnswer.read
  shift_reader [Hytera.RadioIp.read_shifts, Hytera.Gpsdata.read_shifts]

theorem Hytera.LocationProtocol.ConditionReportAnswer.read_shifts : Shifts (Hytera.LocationProtocol.ConditionReportAnswer.read) := by
  unfold Hytera.LocationProtocol.ConditionReportAnswer.read
  shift_reader [Hytera.RadioIp.read_shifts]

theorem Hytera.LocationProtocol.EmergencyReportStopRequest.read_shifts : Shifts (Hytera.LocationProtocol.EmergencyReportStopRequest.read) := by
  unfold Hytera.LocationProtocol.EmergencyReportStopRequest.read
  shift_reader [Hytera.RadioIp.read_shifts]

theorem Hytera.LocationProtocol.ConditionQuickGpsAnswer.read_shifts : Shifts (Hytera.LocationProtocol.ConditionQuickGpsAnswer.read) := by
  unfold Hytera.LocationProtocol.ConditionQuickGpsAnswer.read
  shift_reader [Hytera.RadioIp.read_shifts]

theorem Hytera.LocationProtocol.TriggeredReport.read_shifts : Shifts (Hytera.LocationProtocol.TriggeredReport.read) := by
  unfold Hytera.LocationProtocol.TriggeredReport.read
  shift_reader [Hytera.RadioIp.read_shifts, Hytera.Intervalstring.read_shifts, Hytera.Gpsdata.read_shifts]

theorem Hytera.LocationProtocol.ConditionReportWithRssi.read_shifts : Shifts (Hytera.LocationProtocol.ConditionReportWithRssi.read) := by
  unfold Hytera.LocationProtocol.ConditionReportWithRssi.read
  shift_reader [Hytera.RadioIp.read_shifts, Hytera.Gpsdata.read_shifts]

theorem Hytera.LocationProtocol.EmergencyReportStopAnswer.read_shifts : Shifts (Hytera.LocationProtocol.EmergencyReportStopAnswer.read) := by
  unfold Hytera.LocationProtocol.EmergencyReportStopAnswer.read
  shift_reader [Hytera.RadioIp.read_shifts]

theorem Hytera.LocationProtocol.TriggeredReportStopRequest.read_shifts : Shifts (Hytera.LocationProtocol.TriggeredReportStopRequest.read) := by
  unfold Hytera.LocationProtocol.TriggeredReportStopRequest.read
  shift_reader [Hytera.RadioIp.read_shifts]

theorem Hytera.LocationProtocol.readData_shifts (on : EnumVal LocationProtocol.LpSpecificTypes) : Shifts (Hytera.LocationProtocol.readData on) := by
  unfold Hytera.LocationProtocol.readData
  shift_reader [Hytera.LocationProtocol.TriggeredReportAnswer.read_shifts, Hytera.LocationProtocol.EmergencyReportStopRequest.read_shifts, Hytera.LocationProtocol.ConditionQuickGpsRequest.read_shifts, Hytera.LocationProtocol.ConditionReport.read_shifts, Hytera.LocationProtocol.EmergencyReportStopAnswer.read_shifts, Hytera.LocationProtocol.ConditionReportAnswer.read_shifts, Hytera.LocationProtocol.StandardAnswer.read_shifts, Hytera.LocationProtocol.StandardRequest.read_shifts, Hytera.LocationProtocol.TriggeredReport.read_shifts, Hytera.LocationProtocol.TriggeredReportStopAnswer.read_shifts, Hytera.LocationProtocol.StandardAnswerWithRssi.read_shifts, Hytera.LocationProtocol.ConditionReportWithRssi.read_shifts, Hytera.LocationProtocol.TriggeredReportStopRequest.read_shifts, Hytera.LocationProtocol.EmergencyReport.read_shifts, Hytera.LocationProtocol.ConditionReportRequest.read_shifts, Hytera.LocationProtocol.TriggeredReportRequest.read_shifts, Hytera.LocationProtocol.ConditionQuickGpsAnswer.read_shifts]

theorem Hytera.LocationProtocol.read_shifts : Shifts (Hytera.LocationProtocol.read) := by
  unfold Hytera.LocationProtocol.read
  shift_reader [Hytera.LocationProtocol.readData_shifts _]

theorem Hytera.RadioControlProtocol.BroadcastStatusConfigurationReply.read_shifts : Shifts (Hytera.RadioControlProtocol.BroadcastStatusConfigurationReply.read) := by
  unfold Hytera.RadioControlProtocol.BroadcastStatusConfigurationReply.read
  shift_reader []

theorem Hytera.RadioControlProtocol.BroadcastConfiguration.read_shifts : Shifts (Hytera.RadioControlProtocol.BroadcastConfiguration.read) := by
  unfold Hytera.RadioControlProtocol.BroadcastConfiguration.read
  shift_reader []

theorem Hytera.RadioControlProtocol.BroadcastStatusConfigurationRequest.read_shifts : Shifts (Hytera.RadioControlProtocol.BroadcastStatusConfigurationRequest.read) := by
  unfold Hytera.RadioControlProtocol.BroadcastStatusConfigurationRequest.read
  shift_reader [Hytera.RadioControlProtocol.BroadcastConfiguration.read_shifts]

theorem Hytera.RadioControlProtocol.RadioIdentificationReply.read_shifts (parent_message_length : Nat) : Shifts (Hytera.RadioControlProtocol.RadioIdentificationReply.read parent_message_length) := by
  unfold Hytera.RadioControlProtocol.RadioIdentificationReply.read
  shift_reader []

theorem Hytera.RadioControlProtocol.GenericData.read_shifts (parent_message_length : Nat) : Shifts (Hytera.RadioControlProtocol.GenericData.read parent_message_length) := by
  unfold Hytera.RadioControlProtocol.GenericData.read
  shift_reader []

theorem Hytera.RadioControlProtocol.CallRequest.read_shifts : Shifts (Hytera.RadioControlProtocol.CallRequest.read) := by
  unfold Hytera.RadioControlProtocol.CallRequest.read
  shift_reader []

theorem Hytera.RadioControlProtocol.RemoveRadioReply.read_shifts : Shifts (Hytera.RadioControlProtocol.RemoveRadioReply.read) := by
  unfold Hytera.RadioControlProtocol.RemoveRadioReply.read
  shift_reader []

theorem Hytera.RadioControlProtocol.RemoveRadioRequest.read_shifts : Shifts (Hytera.RadioControlProtocol.RemoveRadioRequest.read) := by
  unfold Hytera.RadioControlProtocol.RemoveRadioRequest.read
  shift_reader []

theorem Hytera.RadioControlProtocol.CallReply.read_shifts : Shifts (Hytera.RadioControlProtocol.CallReply.read) := by
  unfold Hytera.RadioControlProtocol.CallReply.read
  shift_reader []

theorem Hytera.RadioControlProtocol.readData_shifts (on : EnumVal RadioControlProtocol.ServiceTypes) (message_length : Nat) : Shifts (Hytera.RadioControlProtocol.readData on message_length) := by
  unfold Hytera.RadioControlProtocol.readData
  shift_reader [Hytera.RadioControlProtocol.CallReply.read_shifts, Hytera.RadioControlProtocol.RadioIdentificationReply.read_shifts _, Hytera.RadioControlProtocol.BroadcastStatusConfigurationRequest.read_shifts, Hytera.RadioControlProtocol.CallRequest.read_shifts, Hytera.RadioControlProtocol.RemoveRadioRequest.read_shifts, Hytera.RadioControlProtocol.BroadcastStatusConfigurationReply.read_shifts, Hytera.RadioControlProtocol.RemoveRadioReply.read_shifts, Hytera.RadioControlProtocol.GenericData.read_shifts _]

theorem Hytera.RadioControlProtocol.read_shifts : Shifts (Hytera.RadioControlProtocol.read) := by
  unfold Hytera.RadioControlProtocol.read
  shift_reader [Hytera.RadioControlProtocol.readData_shifts _ _]

theorem Hytera.RadioId.read_shifts : Shifts (Hytera.RadioId.read) := by
  unfold Hytera.RadioId.read
  shift_reader []

theorem Hytera.RadioRegistrationService.read_shifts : Shifts (Hytera.RadioRegistrationService.read) := by
  unfold Hytera.RadioRegistrationService.read
  shift_reader [Hytera.RadioIp.read_shifts]

theorem Hytera.RealTimeTransportProtocol.FixedHeader.read_shifts : Shifts (Hytera.RealTimeTransportProtocol.FixedHeader.read) := by
  unfold Hytera.RealTimeTransportProtocol.FixedHeader.read
  shift_reader []

theorem Hytera.RealTimeTransportProtocol.HeaderExtension.read_shifts : Shifts (Hytera.RealTimeTransportProtocol.HeaderExtension.read) := by
  unfold Hytera.RealTimeTransportProtocol.HeaderExtension.read
  shift_reader [Hytera.RadioId.read_shifts]

theorem Hytera.TelemetryProtocol.StandardStatusReport.read_shifts : Shifts (Hytera.TelemetryProtocol.StandardStatusReport.read) := by
  unfold Hytera.TelemetryProtocol.StandardStatusReport.read
  shift_reader [Hytera.RadioIp.read_shifts]

theorem Hytera.TelemetryProtocol.VioExtendedStatus.read_shifts : Shifts (Hytera.TelemetryProtocol.VioExtendedStatus.read) := by
  unfold Hytera.TelemetryProtocol.VioExtendedStatus.read
  shift_reader []

theorem Hytera.TelemetryProtocol.RemoteControlAnswer.read_shifts : Shifts (Hytera.TelemetryProtocol.RemoteControlAnswer.read) := by
  unfold Hytera.TelemetryProtocol.RemoteControlAnswer.read
  shift_reader [Hytera.RadioIp.read_shifts]

theorem Hytera.TelemetryProtocol.RemoteControlRequest.read_shifts : Shifts (Hytera.TelemetryProtocol.RemoteControlRequest.read) := by
  unfold Hytera.TelemetryProtocol.RemoteControlRequest.read
  shift_reader [Hytera.RadioIp.read_shifts]

theorem Hytera.TelemetryProtocol.ExtendedStatusReport.read_shifts : Shifts (Hytera.TelemetryProtocol.ExtendedStatusReport.read) := by
  unfold Hytera.TelemetryProtocol.ExtendedStatusReport.read
  shift_reader [Hytera.RadioIp.read_shifts, Hytera.TelemetryProtocol.VioExtendedStatus.read_shifts]

theorem Hytera.TelemetryProtocol.StandardStatusRequest.read_shifts : Shifts (Hytera.TelemetryProtocol.StandardStatusRequest.read) := by
  unfold Hytera.TelemetryProtocol.StandardStatusRequest.read
  shift_reader [Hytera.RadioIp.read_shifts]

theorem Hytera.TelemetryProtocol.readData_shifts (on : EnumVal TelemetryProtocol.ServiceSpecificTypes) : Shifts (Hytera.TelemetryProtocol.readData on) := by
  unfold Hytera.TelemetryProtocol.readData
  shift_reader [Hytera.TelemetryProtocol.StandardStatusRequest.read_shifts, Hytera.TelemetryProtocol.RemoteControlAnswer.read_shifts, Hytera.TelemetryProtocol.ExtendedStatusReport.read_shifts, Hytera.TelemetryProtocol.RemoteControlRequest.read_shifts, Hytera.TelemetryProtocol.StandardStatusReport.read_shifts]

theorem Hytera.TextMessageProtocol.optionFlagIsOne_shifts (f : EnumVal TextMessageProtocol.OptionFlags) : Shifts (Hytera.TextMessageProtocol.optionFlagIsOne f) := by
  unfold Hytera.TextMessageProtocol.optionFlagIsOne
  shift_reader []

theorem Hytera.TextMessageProtocol.optionSumLen_shifts (f : EnumVal TextMessageProtocol.OptionFlags) (len : Option Nat) : Shifts (Hytera.TextMessageProtocol.optionSumLen f len) := by
  unfold Hytera.TextMessageProtocol.optionSumLen
  shift_reader [Hytera.TextMessageProtocol.optionFlagIsOne_shifts _]

theorem Hytera.TextMessageProtocol.readOptionField_shifts (len : Option Nat) : Shifts (Hytera.TextMessageProtocol.readOptionField len) := by
  unfold Hytera.TextMessageProtocol.readOptionField
  shift_reader []

theorem Hytera.TextMessageProtocol.read_shifts : Shifts (Hytera.TextMessageProtocol.read) := by
  unfold Hytera.TextMessageProtocol.read
  shift_reader [Hytera.TextMessageProtocol.optionFlagIsOne_shifts _, Hytera.RadioIp.read_shifts, Hytera.TextMessageProtocol.optionSumLen_shifts _ _, Hytera.TextMessageProtocol.readOptionField_shifts _]

theorem Motorola.AutomaticRegistrationService.MessageHeaderBits.read_shifts : Shifts (Motorola.AutomaticRegistrationService.MessageHeaderBits.read) := by
  unfold Motorola.AutomaticRegistrationService.MessageHeaderBits.read
  shift_reader []

theorem Motorola.AutomaticRegistrationService.DeviceRegistrationAcknowledgementHeader.read_shifts : Shifts (Motorola.AutomaticRegistrationService.DeviceRegistrationAcknowledgementHeader.read) := by
  unfold Motorola.AutomaticRegistrationService.DeviceRegistrationAcknowledgementHeader.read
  shift_reader []

theorem Motorola.AutomaticRegistrationService.DeviceRegistrationAcknowledgementFailureReason.read_shifts : Shifts (Motorola.AutomaticRegistrationService.DeviceRegistrationAcknowledgementFailureReason.read) := by
  unfold Motorola.AutomaticRegistrationService.DeviceRegistrationAcknowledgementFailureReason.read
  shift_reader []

theorem Motorola.AutomaticRegistrationService.AcknowledgementMessage.read_shifts (root_message_header : AutomaticRegistrationService.MessageHeaderBits) : Shifts (Motorola.AutomaticRegistrationService.AcknowledgementMessage.read root_message_header) := by
  unfold Motorola.AutomaticRegistrationService.AcknowledgementMessage.read
  shift_reader [Motorola.AutomaticRegistrationService.DeviceRegistrationAcknowledgementHeader.read_shifts, Motorola.AutomaticRegistrationService.DeviceRegistrationAcknowledgementFailureReason.read_shifts]

theorem Motorola.AutomaticRegistrationService.DeviceRegistrationMessageHeader.read_shifts : Shifts (Motorola.AutomaticRegistrationService.DeviceRegistrationMessageHeader.read) := by
  unfold Motorola.AutomaticRegistrationService.DeviceRegistrationMessageHeader.read
  shift_reader []

theorem Motorola.AutomaticRegistrationService.DeviceDeregistrationMessage.read_shifts : Shifts (Motorola.AutomaticRegistrationService.DeviceDeregistrationMessage.read) := by
  unfold Motorola.AutomaticRegistrationService.DeviceDeregistrationMessage.read
  shift_reader []

theorem Motorola.AutomaticRegistrationService.DeviceRegistrationMessage.read_shifts (root_message_header : AutomaticRegistrationService.MessageHeaderBits) : Shifts (Motorola.AutomaticRegistrationService.DeviceRegistrationMessage.read root_message_header) := by
  unfold Motorola.AutomaticRegistrationService.DeviceRegistrationMessage.read
  shift_reader [Motorola.AutomaticRegistrationService.DeviceRegistrationMessageHeader.read_shifts]

theorem Motorola.AutomaticRegistrationService.ArsQueryMessage.read_shifts : Shifts (Motorola.AutomaticRegistrationService.ArsQueryMessage.read) := by
  unfold Motorola.AutomaticRegistrationService.ArsQueryMessage.read
  shift_reader []

theorem Motorola.AutomaticRegistrationService.readPduContent_shifts (on : Nat) (message_header : AutomaticRegistrationService.MessageHeaderBits) : Shifts (Motorola.AutomaticRegistrationService.readPduContent on message_header) := by
  unfold Motorola.AutomaticRegistrationService.readPduContent
  shift_reader [Motorola.AutomaticRegistrationService.DeviceRegistrationMessage.read_shifts _, Motorola.AutomaticRegistrationService.DeviceDeregistrationMessage.read_shifts, Motorola.AutomaticRegistrationService.ArsQueryMessage.read_shifts, Motorola.AutomaticRegistrationService.AcknowledgementMessage.read_shifts _]

theorem Motorola.AutomaticRegistrationService.read_shifts : Shifts (Motorola.AutomaticRegistrationService.read) := by
  unfold Motorola.AutomaticRegistrationService.read
  shift_reader [Motorola.AutomaticRegistrationService.MessageHeaderBits.read_shifts, Motorola.AutomaticRegistrationService.readPduContent_shifts _ _]

theorem Motorola.MotorolaBinaryXml.OpaqueElementValue.read_shifts : Shifts (Motorola.MotorolaBinaryXml.OpaqueElementValue.read) := by
  unfold Motorola.MotorolaBinaryXml.OpaqueElementValue.read
  shift_reader []

theorem Motorola.MotorolaBinaryXml.Opaque1byteValue.read_shifts : Shifts (Motorola.MotorolaBinaryXml.Opaque1byteValue.read) := by
  unfold Motorola.MotorolaBinaryXml.Opaque1byteValue.read
  shift_reader []

theorem Motorola.MotorolaBinaryXml.Opaque3byteValue.read_shifts : Shifts (Motorola.MotorolaBinaryXml.Opaque3byteValue.read) := by
  unfold Motorola.MotorolaBinaryXml.Opaque3byteValue.read
  shift_reader []

theorem Motorola.MotorolaBinaryXml.Opaque5byteValue.read_shifts : Shifts (Motorola.MotorolaBinaryXml.Opaque5byteValue.read) := by
  unfold Motorola.MotorolaBinaryXml.Opaque5byteValue.read
  shift_reader []

theorem Motorola.MotorolaBinaryXml.Opaque2byteValue.read_shifts : Shifts (Motorola.MotorolaBinaryXml.Opaque2byteValue.read) := by
  unfold Motorola.MotorolaBinaryXml.Opaque2byteValue.read
  shift_reader []

theorem Motorola.MotorolaBinaryXml.Opaque4byteValue.read_shifts : Shifts (Motorola.MotorolaBinaryXml.Opaque4byteValue.read) := by
  unfold Motorola.MotorolaBinaryXml.Opaque4byteValue.read
  shift_reader []

theorem Motorola.TextMessageProtocol.MessageHeaderBits.read_shifts : Shifts (Motorola.TextMessageProtocol.MessageHeaderBits.read) := by
  unfold Motorola.TextMessageProtocol.MessageHeaderBits.read
  shift_reader []

theorem Motorola.TextMessageProtocol.TextMessageHeaderSequenceAndEncoding.read_shifts : Shifts (Motorola.TextMessageProtocol.TextMessageHeaderSequenceAndEncoding.read) := by
  unfold Motorola.TextMessageProtocol.TextMessageHeaderSequenceAndEncoding.read
  shift_reader []

theorem Motorola.TextMessageProtocol.TextMessage.read_shifts (root_message_header : TextMessageProtocol.MessageHeaderBits) : Shifts (Motorola.TextMessageProtocol.TextMessage.read root_message_header) := by
  unfold Motorola.TextMessageProtocol.TextMessage.read
  shift_reader [Motorola.TextMessageProtocol.TextMessageHeaderSequenceAndEncoding.read_shifts]

theorem Motorola.TextMessageProtocol.TmsServiceAvailabilityHeader.read_shifts : Shifts (Motorola.TextMessageProtocol.TmsServiceAvailabilityHeader.read) := by
  unfold Motorola.TextMessageProtocol.TmsServiceAvailabilityHeader.read
  shift_reader []

theorem Motorola.TextMessageProtocol.TmsServiceAvailability.read_shifts (root_message_header : TextMessageProtocol.MessageHeaderBits) : Shifts (Motorola.TextMessageProtocol.TmsServiceAvailability.read root_message_header) := by
  unfold Motorola.TextMessageProtocol.TmsServiceAvailability.read
  shift_reader [Motorola.TextMessageProtocol.TmsServiceAvailabilityHeader.read_shifts]

theorem Motorola.TextMessageProtocol.TmsAcknowledgementHeaderSequenceNumber.read_shifts : Shifts (Motorola.TextMessageProtocol.TmsAcknowledgementHeaderSequenceNumber.read) := by
  unfold Motorola.TextMessageProtocol.TmsAcknowledgementHeaderSequenceNumber.read
  shift_reader []

theorem Motorola.TextMessageProtocol.TmsAcknowledgement.read_shifts (root_message_header : TextMessageProtocol.MessageHeaderBits) : Shifts (Motorola.TextMessageProtocol.TmsAcknowledgement.read root_message_header) := by
  unfold Motorola.TextMessageProtocol.TmsAcknowledgement.read
  shift_reader [Motorola.TextMessageProtocol.TmsAcknowledgementHeaderSequenceNumber.read_shifts]

theorem Motorola.TextMessageProtocol.TmsServiceAvailabilityAcknowledgement.read_shifts : Shifts (Motorola.TextMessageProtocol.TmsServiceAvailabilityAcknowledgement.read) := by
  unfold Motorola.TextMessageProtocol.TmsServiceAvailabilityAcknowledgement.read
  shift_reader []

theorem Motorola.TextMessageProtocol.readPduContent_shifts (on : Nat) (message_header : TextMessageProtocol.MessageHeaderBits) : Shifts (Motorola.TextMessageProtocol.readPduContent on message_header) := by
  unfold Motorola.TextMessageProtocol.readPduContent
  shift_reader [Motorola.TextMessageProtocol.TmsServiceAvailability.read_shifts _, Motorola.TextMessageProtocol.TmsAcknowledgement.read_shifts _, Motorola.TextMessageProtocol.TextMessage.read_shifts _]

theorem Motorola.TextMessageProtocol.read_shifts : Shifts (Motorola.TextMessageProtocol.read) := by
  unfold Motorola.TextMessageProtocol.read
  shift_reader [Motorola.TextMessageProtocol.MessageHeaderBits.read_shifts, Motorola.TextMessageProtocol.readPduContent_shifts _ _]

end Dmr
