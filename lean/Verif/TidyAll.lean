import Verif.Tidy
import Verif.Model.Etsi.DmrCsbk
import Verif.Model.Etsi.DmrData
import Verif.Model.Etsi.DmrDataHeader
import Verif.Model.Etsi.DmrIpUdp
import Verif.Model.Etsi.FullLinkControl
import Verif.Model.Homebrew.Homebrew2015
import Verif.Model.Homebrew.Mmdvm2020
import Verif.Model.Hytera.DataDeliveryStates
import Verif.Model.Hytera.DataTransmitProtocol
import Verif.Model.Hytera.Datetimestring
import Verif.Model.Hytera.Gpsdata
import Verif.Model.Hytera.HyteraDmrApplicationProtocol
import Verif.Model.Hytera.HyteraRadioNetworkProtocol
import Verif.Model.Hytera.HyteraSimpleTransportReliabilityProtocol
import Verif.Model.Hytera.Intervalstring
import Verif.Model.Hytera.IpSiteConnectHeartbeat
import Verif.Model.Hytera.IpSiteConnectProtocol
import Verif.Model.Hytera.LocationProtocol
import Verif.Model.Hytera.RadioControlProtocol
import Verif.Model.Hytera.RadioId
import Verif.Model.Hytera.RadioIp
import Verif.Model.Hytera.RadioRegistrationService
import Verif.Model.Hytera.RealTimeTransportProtocol
import Verif.Model.Hytera.TelemetryProtocol
import Verif.Model.Hytera.TextMessageProtocol
import Verif.Model.Motorola.AutomaticRegistrationService
import Verif.Model.Motorola.MotorolaBinaryXml
import Verif.Model.Motorola.MotorolaUtils
import Verif.Model.Motorola.TextMessageProtocol
import Verif.Model.Tools.Byteswap
import Verif.Model.Tools.Debug
import Verif.Model.Tools.Prettyprint
import Verif.Model.Tools.PyView
/-
`Tidy` for the same decoders as in Verif/ShiftAll.lean (generated by tools/mkshift.py).
-/

set_option linter.unusedVariables false

namespace Dmr

theorem Etsi.DmrCsbk.NegativeAckResponseData.read_tidy : Tidy (Etsi.DmrCsbk.NegativeAckResponseData.read) := by
  unfold Etsi.DmrCsbk.NegativeAckResponseData.read
  tidy_reader []

theorem Etsi.DmrCsbk.ServiceOptions.read_tidy : Tidy (Etsi.DmrCsbk.ServiceOptions.read) := by
  unfold Etsi.DmrCsbk.ServiceOptions.read
  tidy_reader []

theorem Etsi.DmrCsbk.UnitToUnitVoiceRequestData.read_tidy : Tidy (Etsi.DmrCsbk.UnitToUnitVoiceRequestData.read) := by
  unfold Etsi.DmrCsbk.UnitToUnitVoiceRequestData.read
  tidy_reader [Etsi.DmrCsbk.ServiceOptions.read_tidy]

theorem Etsi.DmrCsbk.PreambleData.read_tidy : Tidy (Etsi.DmrCsbk.PreambleData.read) := by
  unfold Etsi.DmrCsbk.PreambleData.read
  tidy_reader []

theorem Etsi.DmrCsbk.ChannelTimingData.read_tidy : Tidy (Etsi.DmrCsbk.ChannelTimingData.read) := by
  unfold Etsi.DmrCsbk.ChannelTimingData.read
  tidy_reader []

theorem Etsi.DmrCsbk.BsOutboundActivationData.read_tidy : Tidy (Etsi.DmrCsbk.BsOutboundActivationData.read) := by
  unfold Etsi.DmrCsbk.BsOutboundActivationData.read
  tidy_reader []

theorem Etsi.DmrCsbk.UnitToUnitVoiceAnswerData.read_tidy : Tidy (Etsi.DmrCsbk.UnitToUnitVoiceAnswerData.read) := by
  unfold Etsi.DmrCsbk.UnitToUnitVoiceAnswerData.read
  tidy_reader [Etsi.DmrCsbk.ServiceOptions.read_tidy]

theorem Etsi.DmrCsbk.readCsbkData_tidy (on : EnumVal DmrCsbk.CsbkoTypes) : Tidy (Etsi.DmrCsbk.readCsbkData on) := by
  unfold Etsi.DmrCsbk.readCsbkData
  tidy_reader [Etsi.DmrCsbk.UnitToUnitVoiceAnswerData.read_tidy, Etsi.DmrCsbk.PreambleData.read_tidy, Etsi.DmrCsbk.ChannelTimingData.read_tidy, Etsi.DmrCsbk.UnitToUnitVoiceRequestData.read_tidy, Etsi.DmrCsbk.BsOutboundActivationData.read_tidy, Etsi.DmrCsbk.NegativeAckResponseData.read_tidy]

theorem Etsi.DmrCsbk.read_tidy : Tidy (Etsi.DmrCsbk.read) := by
  unfold Etsi.DmrCsbk.read
  tidy_reader [Etsi.DmrCsbk.readCsbkData_tidy _]

theorem Etsi.DmrData.Rate1LastBlockUnconfirmed.read_tidy : Tidy (Etsi.DmrData.Rate1LastBlockUnconfirmed.read) := by
  unfold Etsi.DmrData.Rate1LastBlockUnconfirmed.read
  tidy_reader []

theorem Etsi.DmrData.Rate12LastBlockConfirmed.read_tidy : Tidy (Etsi.DmrData.Rate12LastBlockConfirmed.read) := by
  unfold Etsi.DmrData.Rate12LastBlockConfirmed.read
  tidy_reader []

theorem Etsi.DmrData.Rate12Confirmed.read_tidy : Tidy (Etsi.DmrData.Rate12Confirmed.read) := by
  unfold Etsi.DmrData.Rate12Confirmed.read
  tidy_reader []

theorem Etsi.DmrData.Rate34LastBlockUnconfirmed.read_tidy : Tidy (Etsi.DmrData.Rate34LastBlockUnconfirmed.read) := by
  unfold Etsi.DmrData.Rate34LastBlockUnconfirmed.read
  tidy_reader []

theorem Etsi.DmrData.Rate1LastBlockConfirmed.read_tidy : Tidy (Etsi.DmrData.Rate1LastBlockConfirmed.read) := by
  unfold Etsi.DmrData.Rate1LastBlockConfirmed.read
  tidy_reader []

theorem Etsi.DmrData.Rate1Unconfirmed.read_tidy : Tidy (Etsi.DmrData.Rate1Unconfirmed.read) := by
  unfold Etsi.DmrData.Rate1Unconfirmed.read
  tidy_reader []

theorem Etsi.DmrData.UdtLastBlock.read_tidy : Tidy (Etsi.DmrData.UdtLastBlock.read) := by
  unfold Etsi.DmrData.UdtLastBlock.read
  tidy_reader []

theorem Etsi.DmrData.Rate34Confirmed.read_tidy : Tidy (Etsi.DmrData.Rate34Confirmed.read) := by
  unfold Etsi.DmrData.Rate34Confirmed.read
  tidy_reader []

theorem Etsi.DmrData.Rate34LastBlockConfirmed.read_tidy : Tidy (Etsi.DmrData.Rate34LastBlockConfirmed.read) := by
  unfold Etsi.DmrData.Rate34LastBlockConfirmed.read
  tidy_reader []

theorem Etsi.DmrData.Rate34Unconfirmed.read_tidy : Tidy (Etsi.DmrData.Rate34Unconfirmed.read) := by
  unfold Etsi.DmrData.Rate34Unconfirmed.read
  tidy_reader []

theorem Etsi.DmrData.Rate12LastBlockUnconfirmed.read_tidy : Tidy (Etsi.DmrData.Rate12LastBlockUnconfirmed.read) := by
  unfold Etsi.DmrData.Rate12LastBlockUnconfirmed.read
  tidy_reader []

theorem Etsi.DmrData.Rate1Confirmed.read_tidy : Tidy (Etsi.DmrData.Rate1Confirmed.read) := by
  unfold Etsi.DmrData.Rate1Confirmed.read
  tidy_reader []

theorem Etsi.DmrData.Rate12Unconfirmed.read_tidy : Tidy (Etsi.DmrData.Rate12Unconfirmed.read) := by
  unfold Etsi.DmrData.Rate12Unconfirmed.read
  tidy_reader []

theorem Etsi.DmrData.read_tidy : Tidy (Etsi.DmrData.read) := by
  unfold Etsi.DmrData.read
  tidy_reader []

theorem Etsi.DmrDataHeader.DataHeaderShortRaw.read_tidy : Tidy (Etsi.DmrDataHeader.DataHeaderShortRaw.read) := by
  unfold Etsi.DmrDataHeader.DataHeaderShortRaw.read
  tidy_reader []

theorem Etsi.DmrDataHeader.DataHeaderProprietary.read_tidy : Tidy (Etsi.DmrDataHeader.DataHeaderProprietary.read) := by
  unfold Etsi.DmrDataHeader.DataHeaderProprietary.read
  tidy_reader []

theorem Etsi.DmrDataHeader.DataHeaderUndefined.read_tidy : Tidy (Etsi.DmrDataHeader.DataHeaderUndefined.read) := by
  unfold Etsi.DmrDataHeader.DataHeaderUndefined.read
  tidy_reader []

theorem Etsi.DmrDataHeader.DataHeaderShortStatusPrecoded.read_tidy : Tidy (Etsi.DmrDataHeader.DataHeaderShortStatusPrecoded.read) := by
  unfold Etsi.DmrDataHeader.DataHeaderShortStatusPrecoded.read
  tidy_reader []

theorem Etsi.DmrDataHeader.DataHeaderResponse.read_tidy : Tidy (Etsi.DmrDataHeader.DataHeaderResponse.read) := by
  unfold Etsi.DmrDataHeader.DataHeaderResponse.read
  tidy_reader []

theorem Etsi.DmrDataHeader.DataHeaderConfirmed.read_tidy : Tidy (Etsi.DmrDataHeader.DataHeaderConfirmed.read) := by
  unfold Etsi.DmrDataHeader.DataHeaderConfirmed.read
  tidy_reader []

theorem Etsi.DmrDataHeader.DataHeaderUnconfirmed.read_tidy : Tidy (Etsi.DmrDataHeader.DataHeaderUnconfirmed.read) := by
  unfold Etsi.DmrDataHeader.DataHeaderUnconfirmed.read
  tidy_reader []

theorem Etsi.DmrDataHeader.DataHeaderShortDefined.read_tidy : Tidy (Etsi.DmrDataHeader.DataHeaderShortDefined.read) := by
  unfold Etsi.DmrDataHeader.DataHeaderShortDefined.read
  tidy_reader []

theorem Etsi.DmrDataHeader.DataHeaderUdt.read_tidy : Tidy (Etsi.DmrDataHeader.DataHeaderUdt.read) := by
  unfold Etsi.DmrDataHeader.DataHeaderUdt.read
  tidy_reader []

theorem Etsi.DmrDataHeader.read_tidy : Tidy (Etsi.DmrDataHeader.read) := by
  unfold Etsi.DmrDataHeader.read
  tidy_reader []

theorem Etsi.DmrDataHeader.readDataBody_tidy (on : EnumVal DmrDataHeader.DataPacketFormats) : Tidy (Etsi.DmrDataHeader.readDataBody on) := by
  unfold Etsi.DmrDataHeader.readDataBody
  tidy_reader [Etsi.DmrDataHeader.DataHeaderProprietary.read_tidy, Etsi.DmrDataHeader.DataHeaderShortDefined.read_tidy, Etsi.DmrDataHeader.DataHeaderUnconfirmed.read_tidy, Etsi.DmrDataHeader.DataHeaderConfirmed.read_tidy, Etsi.DmrDataHeader.DataHeaderUdt.read_tidy, Etsi.DmrDataHeader.DataHeaderShortStatusPrecoded.read_tidy, Etsi.DmrDataHeader.DataHeaderResponse.read_tidy, Etsi.DmrDataHeader.DataHeaderUndefined.read_tidy]

theorem Etsi.DmrIpUdp.UdpIpv4CompressedHeader.read_tidy : Tidy (Etsi.DmrIpUdp.UdpIpv4CompressedHeader.read) := by
  unfold Etsi.DmrIpUdp.UdpIpv4CompressedHeader.read
  tidy_reader []

theorem Etsi.DmrIpUdp.read_tidy : Tidy (Etsi.DmrIpUdp.read) := by
  unfold Etsi.DmrIpUdp.read
  tidy_reader []

theorem Etsi.FullLinkControl.GpsInfoLcPdu.read_tidy : Tidy (Etsi.FullLinkControl.GpsInfoLcPdu.read) := by
  unfold Etsi.FullLinkControl.GpsInfoLcPdu.read
  tidy_reader []

theorem Etsi.FullLinkControl.GroupVoiceChannelUser.read_tidy : Tidy (Etsi.FullLinkControl.GroupVoiceChannelUser.read) := by
  unfold Etsi.FullLinkControl.GroupVoiceChannelUser.read
  tidy_reader []

theorem Etsi.FullLinkControl.UnitToUnitVoiceChannelUser.read_tidy : Tidy (Etsi.FullLinkControl.UnitToUnitVoiceChannelUser.read) := by
  unfold Etsi.FullLinkControl.UnitToUnitVoiceChannelUser.read
  tidy_reader []

theorem Etsi.FullLinkControl.TalkerAliasHeader.read_tidy : Tidy (Etsi.FullLinkControl.TalkerAliasHeader.read) := by
  unfold Etsi.FullLinkControl.TalkerAliasHeader.read
  tidy_reader []

theorem Etsi.FullLinkControl.TalkerAliasContinuation.read_tidy : Tidy (Etsi.FullLinkControl.TalkerAliasContinuation.read) := by
  unfold Etsi.FullLinkControl.TalkerAliasContinuation.read
  tidy_reader []

theorem Etsi.FullLinkControl.readSpecificData_tidy (on : EnumVal FullLinkControl.Flcos) : Tidy (Etsi.FullLinkControl.readSpecificData on) := by
  unfold Etsi.FullLinkControl.readSpecificData
  tidy_reader [Etsi.FullLinkControl.TalkerAliasHeader.read_tidy, Etsi.FullLinkControl.UnitToUnitVoiceChannelUser.read_tidy, Etsi.FullLinkControl.GroupVoiceChannelUser.read_tidy, Etsi.FullLinkControl.TalkerAliasContinuation.read_tidy, Etsi.FullLinkControl.GpsInfoLcPdu.read_tidy]

theorem Homebrew.Homebrew2015.TypeMasterPing.read_tidy : Tidy (Homebrew.Homebrew2015.TypeMasterPing.read) := by
  unfold Homebrew.Homebrew2015.TypeMasterPing.read
  tidy_reader []

theorem Homebrew.Homebrew2015.TypeRepeaterPong.read_tidy : Tidy (Homebrew.Homebrew2015.TypeRepeaterPong.read) := by
  unfold Homebrew.Homebrew2015.TypeRepeaterPong.read
  tidy_reader []

theorem Homebrew.Homebrew2015.TypeRepeaterClosing.read_tidy : Tidy (Homebrew.Homebrew2015.TypeRepeaterClosing.read) := by
  unfold Homebrew.Homebrew2015.TypeRepeaterClosing.read
  tidy_reader []

theorem Homebrew.Homebrew2015.TypeRepeaterConfiguration.read_tidy : Tidy (Homebrew.Homebrew2015.TypeRepeaterConfiguration.read) := by
  unfold Homebrew.Homebrew2015.TypeRepeaterConfiguration.read
  tidy_reader []

theorem Homebrew.Homebrew2015.TypeRepeaterConfigurationOrClosing.readData_tidy (on : PyStr) : Tidy (Homebrew.Homebrew2015.TypeRepeaterConfigurationOrClosing.readData on) := by
  unfold Homebrew.Homebrew2015.TypeRepeaterConfigurationOrClosing.readData
  tidy_reader [Homebrew.Homebrew2015.TypeRepeaterClosing.read_tidy, Homebrew.Homebrew2015.TypeRepeaterConfiguration.read_tidy]

theorem Homebrew.Homebrew2015.TypeRepeaterLoginResponse.read_tidy : Tidy (Homebrew.Homebrew2015.TypeRepeaterLoginResponse.read) := by
  unfold Homebrew.Homebrew2015.TypeRepeaterLoginResponse.read
  tidy_reader []

theorem Homebrew.Homebrew2015.TypeRepeaterLoginRequest.read_tidy : Tidy (Homebrew.Homebrew2015.TypeRepeaterLoginRequest.read) := by
  unfold Homebrew.Homebrew2015.TypeRepeaterLoginRequest.read
  tidy_reader []

theorem Homebrew.Homebrew2015.TypeMasterNotAccept.read_tidy : Tidy (Homebrew.Homebrew2015.TypeMasterNotAccept.read) := by
  unfold Homebrew.Homebrew2015.TypeMasterNotAccept.read
  tidy_reader []

theorem Homebrew.Homebrew2015.TypeMasterRepeaterAck.read_tidy : Tidy (Homebrew.Homebrew2015.TypeMasterRepeaterAck.read) := by
  unfold Homebrew.Homebrew2015.TypeMasterRepeaterAck.read
  tidy_reader []

theorem Homebrew.Homebrew2015.TypeMasterClosing.read_tidy : Tidy (Homebrew.Homebrew2015.TypeMasterClosing.read) := by
  unfold Homebrew.Homebrew2015.TypeMasterClosing.read
  tidy_reader []

theorem Homebrew.Homebrew2015.TypeDmrData.read_tidy : Tidy (Homebrew.Homebrew2015.TypeDmrData.read) := by
  unfold Homebrew.Homebrew2015.TypeDmrData.read
  tidy_reader []

theorem Homebrew.Homebrew2015.TypeRepeaterOptions.read_tidy : Tidy (Homebrew.Homebrew2015.TypeRepeaterOptions.read) := by
  unfold Homebrew.Homebrew2015.TypeRepeaterOptions.read
  tidy_reader []

theorem Homebrew.Mmdvm2020.TypeMasterPong.read_tidy : Tidy (Homebrew.Mmdvm2020.TypeMasterPong.read) := by
  unfold Homebrew.Mmdvm2020.TypeMasterPong.read
  tidy_reader []

theorem Homebrew.Mmdvm2020.TypeRadioPosition.read_tidy : Tidy (Homebrew.Mmdvm2020.TypeRadioPosition.read) := by
  unfold Homebrew.Mmdvm2020.TypeRadioPosition.read
  tidy_reader []

theorem Homebrew.Mmdvm2020.TypeTalkerAlias.read_tidy : Tidy (Homebrew.Mmdvm2020.TypeTalkerAlias.read) := by
  unfold Homebrew.Mmdvm2020.TypeTalkerAlias.read
  tidy_reader []

theorem Homebrew.Mmdvm2020.TypeRepeaterClosing.read_tidy : Tidy (Homebrew.Mmdvm2020.TypeRepeaterClosing.read) := by
  unfold Homebrew.Mmdvm2020.TypeRepeaterClosing.read
  tidy_reader []

theorem Homebrew.Mmdvm2020.TypeRepeaterConfiguration.read_tidy : Tidy (Homebrew.Mmdvm2020.TypeRepeaterConfiguration.read) := by
  unfold Homebrew.Mmdvm2020.TypeRepeaterConfiguration.read
  tidy_reader []

theorem Homebrew.Mmdvm2020.TypeRepeaterConfigurationOrClosing.readData_tidy (on : PyStr) : Tidy (Homebrew.Mmdvm2020.TypeRepeaterConfigurationOrClosing.readData on) := by
  unfold Homebrew.Mmdvm2020.TypeRepeaterConfigurationOrClosing.readData
  tidy_reader [Homebrew.Mmdvm2020.TypeRepeaterClosing.read_tidy, Homebrew.Mmdvm2020.TypeRepeaterConfiguration.read_tidy]

theorem Homebrew.Mmdvm2020.TypeRepeaterLoginResponse.read_tidy : Tidy (Homebrew.Mmdvm2020.TypeRepeaterLoginResponse.read) := by
  unfold Homebrew.Mmdvm2020.TypeRepeaterLoginResponse.read
  tidy_reader []

theorem Homebrew.Mmdvm2020.TypeRepeaterLoginRequest.read_tidy : Tidy (Homebrew.Mmdvm2020.TypeRepeaterLoginRequest.read) := by
  unfold Homebrew.Mmdvm2020.TypeRepeaterLoginRequest.read
  tidy_reader []

theorem Homebrew.Mmdvm2020.TypeMasterNotAccept.read_tidy : Tidy (Homebrew.Mmdvm2020.TypeMasterNotAccept.read) := by
  unfold Homebrew.Mmdvm2020.TypeMasterNotAccept.read
  tidy_reader []

theorem Homebrew.Mmdvm2020.TypeUnknown.read_tidy : Tidy (Homebrew.Mmdvm2020.TypeUnknown.read) := by
  unfold Homebrew.Mmdvm2020.TypeUnknown.read
  tidy_reader []

theorem Homebrew.Mmdvm2020.TypeMasterRepeaterAck.read_tidy : Tidy (Homebrew.Mmdvm2020.TypeMasterRepeaterAck.read) := by
  unfold Homebrew.Mmdvm2020.TypeMasterRepeaterAck.read
  tidy_reader []

theorem Homebrew.Mmdvm2020.TypeMasterClosing.read_tidy : Tidy (Homebrew.Mmdvm2020.TypeMasterClosing.read) := by
  unfold Homebrew.Mmdvm2020.TypeMasterClosing.read
  tidy_reader []

theorem Homebrew.Mmdvm2020.TypeDmrData.read_tidy : Tidy (Homebrew.Mmdvm2020.TypeDmrData.read) := by
  unfold Homebrew.Mmdvm2020.TypeDmrData.read
  tidy_reader []

theorem Homebrew.Mmdvm2020.TypeRepeaterBeacon.read_tidy : Tidy (Homebrew.Mmdvm2020.TypeRepeaterBeacon.read) := by
  unfold Homebrew.Mmdvm2020.TypeRepeaterBeacon.read
  tidy_reader []

theorem Homebrew.Mmdvm2020.TypeRepeaterOptions.read_tidy : Tidy (Homebrew.Mmdvm2020.TypeRepeaterOptions.read) := by
  unfold Homebrew.Mmdvm2020.TypeRepeaterOptions.read
  tidy_reader []

theorem Homebrew.Mmdvm2020.TypeRepeaterPing.read_tidy : Tidy (Homebrew.Mmdvm2020.TypeRepeaterPing.read) := by
  unfold Homebrew.Mmdvm2020.TypeRepeaterPing.read
  tidy_reader []

theorem Hytera.RadioIp.read_tidy : Tidy (Hytera.RadioIp.read) := by
  unfold Hytera.RadioIp.read
  tidy_reader []

theorem Hytera.DataDeliveryStates.read_tidy : Tidy (Hytera.DataDeliveryStates.read) := by
  unfold Hytera.DataDeliveryStates.read
  tidy_reader [Hytera.RadioIp.read_tidy]

theorem Hytera.DataTransmitProtocol.LastDataSlice.read_tidy : Tidy (Hytera.DataTransmitProtocol.LastDataSlice.read) := by
  unfold Hytera.DataTransmitProtocol.LastDataSlice.read
  tidy_reader [Hytera.RadioIp.read_tidy]

theorem Hytera.DataTransmitProtocol.DtpRequest.read_tidy (parent_message_length : Nat) : Tidy (Hytera.DataTransmitProtocol.DtpRequest.read parent_message_length) := by
  unfold Hytera.DataTransmitProtocol.DtpRequest.read
  tidy_reader [Hytera.RadioIp.read_tidy]

theorem Hytera.DataTransmitProtocol.DataSliceAnswer.read_tidy : Tidy (Hytera.DataTransmitProtocol.DataSliceAnswer.read) := by
  unfold Hytera.DataTransmitProtocol.DataSliceAnswer.read
  tidy_reader [Hytera.RadioIp.read_tidy]

theorem Hytera.DataTransmitProtocol.DataSliceTransmit.read_tidy (parent_message_length : Nat) : Tidy (Hytera.DataTransmitProtocol.DataSliceTransmit.read parent_message_length) := by
  unfold Hytera.DataTransmitProtocol.DataSliceTransmit.read
  tidy_reader [Hytera.RadioIp.read_tidy]

theorem Hytera.DataTransmitProtocol.LastDataSliceAnswer.read_tidy : Tidy (Hytera.DataTransmitProtocol.LastDataSliceAnswer.read) := by
  unfold Hytera.DataTransmitProtocol.LastDataSliceAnswer.read
  tidy_reader [Hytera.RadioIp.read_tidy]

theorem Hytera.DataTransmitProtocol.DtpAnswer.read_tidy : Tidy (Hytera.DataTransmitProtocol.DtpAnswer.read) := by
  unfold Hytera.DataTransmitProtocol.DtpAnswer.read
  tidy_reader [Hytera.RadioIp.read_tidy]

theorem Hytera.DataTransmitProtocol.readData_tidy (on : EnumVal DataTransmitProtocol.ServiceSpecificTypes) (message_length : Nat) : Tidy (Hytera.DataTransmitProtocol.readData on message_length) := by
  unfold Hytera.DataTransmitProtocol.readData
  tidy_reader [Hytera.DataTransmitProtocol.DtpRequest.read_tidy _, Hytera.DataTransmitProtocol.DataSliceTransmit.read_tidy _, Hytera.DataTransmitProtocol.DataSliceAnswer.read_tidy, Hytera.DataTransmitProtocol.LastDataSliceAnswer.read_tidy, Hytera.DataTransmitProtocol.DtpAnswer.read_tidy, Hytera.DataTransmitProtocol.LastDataSlice.read_tidy]

theorem Hytera.DataTransmitProtocol.read_tidy : Tidy (Hytera.DataTransmitProtocol.read) := by
  unfold Hytera.DataTransmitProtocol.read
  tidy_reader [Hytera.DataTransmitProtocol.readData_tidy _ _]

theorem Hytera.Datetimestring.read_tidy : Tidy (Hytera.Datetimestring.read) := by
  unfold Hytera.Datetimestring.read
  tidy_reader []

theorem Hytera.Gpsdata.read_tidy : Tidy (Hytera.Gpsdata.read) := by
  unfold Hytera.Gpsdata.read
  tidy_reader []

theorem Hytera.HyteraDmrApplicationProtocol.UndefinedProtocol.read_tidy : Tidy (Hytera.HyteraDmrApplicationProtocol.UndefinedProtocol.read) := by
  unfold Hytera.HyteraDmrApplicationProtocol.UndefinedProtocol.read
  tidy_reader []

theorem Hytera.HyteraSimpleTransportReliabilityProtocol.Option.read_tidy : Tidy (Hytera.HyteraSimpleTransportReliabilityProtocol.Option.read) := by
  unfold Hytera.HyteraSimpleTransportReliabilityProtocol.Option.read
  tidy_reader []

theorem Hytera.Intervalstring.read_tidy : Tidy (Hytera.Intervalstring.read) := by
  unfold Hytera.Intervalstring.read
  tidy_reader []

theorem Hytera.IpSiteConnectHeartbeat.Keepalive.read_tidy : Tidy (Hytera.IpSiteConnectHeartbeat.Keepalive.read) := by
  unfold Hytera.IpSiteConnectHeartbeat.Keepalive.read
  tidy_reader []

theorem Hytera.IpSiteConnectHeartbeat.PingPong.read_tidy : Tidy (Hytera.IpSiteConnectHeartbeat.PingPong.read) := by
  unfold Hytera.IpSiteConnectHeartbeat.PingPong.read
  tidy_reader []

theorem Hytera.IpSiteConnectHeartbeat.Unknown.read_tidy : Tidy (Hytera.IpSiteConnectHeartbeat.Unknown.read) := by
  unfold Hytera.IpSiteConnectHeartbeat.Unknown.read
  tidy_reader []

theorem Hytera.IpSiteConnectHeartbeat.readData_tidy (on : Nat) : Tidy (Hytera.IpSiteConnectHeartbeat.readData on) := by
  unfold Hytera.IpSiteConnectHeartbeat.readData
  tidy_reader [Hytera.IpSiteConnectHeartbeat.Keepalive.read_tidy, Hytera.IpSiteConnectHeartbeat.PingPong.read_tidy, Hytera.IpSiteConnectHeartbeat.Unknown.read_tidy]

theorem Hytera.IpSiteConnectProtocol.read_tidy : Tidy (Hytera.IpSiteConnectProtocol.read) := by
  unfold Hytera.IpSiteConnectProtocol.read
  tidy_reader []

theorem Hytera.LocationProtocol.TriggeredReportStopAnswer.read_tidy : Tidy (Hytera.LocationProtocol.TriggeredReportStopAnswer.read) := by
  unfold Hytera.LocationProtocol.TriggeredReportStopAnswer.read
  tidy_reader [Hytera.RadioIp.read_tidy]

theorem Hytera.LocationProtocol.ConditionReportRequest.read_tidy : Tidy (Hytera.LocationProtocol.ConditionReportRequest.read) := by
  unfold Hytera.LocationProtocol.ConditionReportRequest.read
  tidy_reader [Hytera.RadioIp.read_tidy, Hytera.Datetimestring.read_tidy, Hytera.Intervalstring.read_tidy]

theorem Hytera.LocationProtocol.QuickGpsPayload.read_tidy : Tidy (Hytera.LocationProtocol.QuickGpsPayload.read) := by
  unfold Hytera.LocationProtocol.QuickGpsPayload.read
  tidy_reader [Hytera.Datetimestring.read_tidy, Hytera.Intervalstring.read_tidy]

theorem Hytera.LocationProtocol.ConditionQuickGpsRequest.read_tidy : Tidy (Hytera.LocationProtocol.ConditionQuickGpsRequest.read) := by
  unfold Hytera.LocationProtocol.ConditionQuickGpsRequest.read
  tidy_reader [Hytera.RadioIp.read_tidy, Hytera.LocationProtocol.QuickGpsPayload.read_tidy]

theorem Hytera.LocationProtocol.ConditionReport.read_tidy : Tidy (Hytera.LocationProtocol.ConditionReport.read) := by
  unfold Hytera.LocationProtocol.ConditionReport.read
  tidy_reader [Hytera.RadioIp.read_tidy, Hytera.Gpsdata.read_tidy]

theorem Hytera.LocationProtocol.EmergencyReport.read_tidy : Tidy (Hytera.LocationProtocol.EmergencyReport.read) := by
  unfold Hytera.LocationProtocol.EmergencyReport.read
  tidy_reader [Hytera.RadioIp.read_tidy, Hytera.Gpsdata.read_tidy]

theorem Hytera.LocationProtocol.TriggeredReportAnswer.read_tidy : Tidy (Hytera.LocationProtocol.TriggeredReportAnswer.read) := by
  unfold Hytera.LocationProtocol.TriggeredReportAnswer.read
  tidy_reader [Hytera.RadioIp.read_tidy]

theorem Hytera.LocationProtocol.StandardAnswerWithRssi.read_tidy : Tidy (Hytera.LocationProtocol.StandardAnswerWithRssi.read) := by
  unfold Hytera.LocationProtocol.StandardAnswerWithRssi.read
  tidy_reader [Hytera.RadioIp.read_tidy, Hytera.Gpsdata.read_tidy]

theorem Hytera.LocationProtocol.StandardRequest.read_tidy : Tidy (Hytera.LocationProtocol.StandardRequest.read) := by
  unfold Hytera.LocationProtocol.StandardRequest.read
  tidy_reader [Hytera.RadioIp.read_tidy]

theorem Hytera.LocationProtocol.TriggeredReportRequest.read_tidy : Tidy (Hytera.LocationProtocol.TriggeredReportRequest.read) := by
  unfold Hytera.LocationProtocol.TriggeredReportRequest.read
  tidy_reader [Hytera.RadioIp.read_tidy, Hytera.Datetimestring.read_tidy, Hytera.Intervalstring.read_tidy]

theorem Hytera.LocationProtocol.StandardAnswer.read_tidy : Tidy (Hytera.LocationProtocol.StandardAnswer.read) := by
  unfold Hytera.LocationProtocol.StandardAnswer.read
  tidy_reader [Hytera.RadioIp.read_tidy, Hytera.Gpsdata.read_tidy]

theorem Hytera.LocationProtocol.ConditionReportAnswer.read_tidy : Tidy (Hytera.LocationProtocol.ConditionReportAnswer.read) := by
  unfold Hytera.LocationProtocol.ConditionReportAnswer.read
  tidy_reader [Hytera.RadioIp.read_tidy]

theorem Hytera.LocationProtocol.EmergencyReportStopRequest.read_tidy : Tidy (Hytera.LocationProtocol.EmergencyReportStopRequest.read) := by
  unfold Hytera.LocationProtocol.EmergencyReportStopRequest.read
  tidy_reader [Hytera.RadioIp.read_tidy]

theorem Hytera.LocationProtocol.ConditionQuickGpsAnswer.read_tidy : Tidy (Hytera.LocationProtocol.ConditionQuickGpsAnswer.read) := by
  unfold Hytera.LocationProtocol.ConditionQuickGpsAnswer.read
  tidy_reader [Hytera.RadioIp.read_tidy]

theorem Hytera.LocationProtocol.TriggeredReport.read_tidy : Tidy (Hytera.LocationProtocol.TriggeredReport.read) := by
  unfold Hytera.LocationProtocol.TriggeredReport.read
  tidy_reader [Hytera.RadioIp.read_tidy, Hytera.Intervalstring.read_tidy, Hytera.Gpsdata.read_tidy]

theorem Hytera.LocationProtocol.ConditionReportWithRssi.read_tidy : Tidy (Hytera.LocationProtocol.ConditionReportWithRssi.read) := by
  unfold Hytera.LocationProtocol.ConditionReportWithRssi.read
  tidy_reader [Hytera.RadioIp.read_tidy, Hytera.Gpsdata.read_tidy]

theorem Hytera.LocationProtocol.EmergencyReportStopAnswer.read_tidy : Tidy (Hytera.LocationProtocol.EmergencyReportStopAnswer.read) := by
  unfold Hytera.LocationProtocol.EmergencyReportStopAnswer.read
  tidy_reader [Hytera.RadioIp.read_tidy]

theorem Hytera.LocationProtocol.TriggeredReportStopRequest.read_tidy : Tidy (Hytera.LocationProtocol.TriggeredReportStopRequest.read) := by
  unfold Hytera.LocationProtocol.TriggeredReportStopRequest.read
  tidy_reader [Hytera.RadioIp.read_tidy]

theorem Hytera.LocationProtocol.readData_tidy (on : EnumVal LocationProtocol.LpSpecificTypes) : Tidy (Hytera.LocationProtocol.readData on) := by
  unfold Hytera.LocationProtocol.readData
  tidy_reader [Hytera.LocationProtocol.TriggeredReportAnswer.read_tidy, Hytera.LocationProtocol.EmergencyReportStopRequest.read_tidy, Hytera.LocationProtocol.ConditionQuickGpsRequest.read_tidy, Hytera.LocationProtocol.ConditionReport.read_tidy, Hytera.LocationProtocol.EmergencyReportStopAnswer.read_tidy, Hytera.LocationProtocol.ConditionReportAnswer.read_tidy, Hytera.LocationProtocol.StandardAnswer.read_tidy, Hytera.LocationProtocol.StandardRequest.read_tidy, Hytera.LocationProtocol.TriggeredReport.read_tidy, Hytera.LocationProtocol.TriggeredReportStopAnswer.read_tidy, Hytera.LocationProtocol.StandardAnswerWithRssi.read_tidy, Hytera.LocationProtocol.ConditionReportWithRssi.read_tidy, Hytera.LocationProtocol.TriggeredReportStopRequest.read_tidy, Hytera.LocationProtocol.EmergencyReport.read_tidy, Hytera.LocationProtocol.ConditionReportRequest.read_tidy, Hytera.LocationProtocol.TriggeredReportRequest.read_tidy, Hytera.LocationProtocol.ConditionQuickGpsAnswer.read_tidy]

theorem Hytera.LocationProtocol.read_tidy : Tidy (Hytera.LocationProtocol.read) := by
  unfold Hytera.LocationProtocol.read
  tidy_reader [Hytera.LocationProtocol.readData_tidy _]

theorem Hytera.RadioControlProtocol.BroadcastStatusConfigurationReply.read_tidy : Tidy (Hytera.RadioControlProtocol.BroadcastStatusConfigurationReply.read) := by
  unfold Hytera.RadioControlProtocol.BroadcastStatusConfigurationReply.read
  tidy_reader []

theorem Hytera.RadioControlProtocol.BroadcastConfiguration.read_tidy : Tidy (Hytera.RadioControlProtocol.BroadcastConfiguration.read) := by
  unfold Hytera.RadioControlProtocol.BroadcastConfiguration.read
  tidy_reader []

theorem Hytera.RadioControlProtocol.BroadcastStatusConfigurationRequest.read_tidy : Tidy (Hytera.RadioControlProtocol.BroadcastStatusConfigurationRequest.read) := by
  unfold Hytera.RadioControlProtocol.BroadcastStatusConfigurationRequest.read
  tidy_reader [Hytera.RadioControlProtocol.BroadcastConfiguration.read_tidy]

theorem Hytera.RadioControlProtocol.RadioIdentificationReply.read_tidy (parent_message_length : Nat) : Tidy (Hytera.RadioControlProtocol.RadioIdentificationReply.read parent_message_length) := by
  unfold Hytera.RadioControlProtocol.RadioIdentificationReply.read
  tidy_reader []

theorem Hytera.RadioControlProtocol.GenericData.read_tidy (parent_message_length : Nat) : Tidy (Hytera.RadioControlProtocol.GenericData.read parent_message_length) := by
  unfold Hytera.RadioControlProtocol.GenericData.read
  tidy_reader []

theorem Hytera.RadioControlProtocol.CallRequest.read_tidy : Tidy (Hytera.RadioControlProtocol.CallRequest.read) := by
  unfold Hytera.RadioControlProtocol.CallRequest.read
  tidy_reader []

theorem Hytera.RadioControlProtocol.RemoveRadioReply.read_tidy : Tidy (Hytera.RadioControlProtocol.RemoveRadioReply.read) := by
  unfold Hytera.RadioControlProtocol.RemoveRadioReply.read
  tidy_reader []

theorem Hytera.RadioControlProtocol.RemoveRadioRequest.read_tidy : Tidy (Hytera.RadioControlProtocol.RemoveRadioRequest.read) := by
  unfold Hytera.RadioControlProtocol.RemoveRadioRequest.read
  tidy_reader []

theorem Hytera.RadioControlProtocol.CallReply.read_tidy : Tidy (Hytera.RadioControlProtocol.CallReply.read) := by
  unfold Hytera.RadioControlProtocol.CallReply.read
  tidy_reader []

theorem Hytera.RadioControlProtocol.readData_tidy (on : EnumVal RadioControlProtocol.ServiceTypes) (message_length : Nat) : Tidy (Hytera.RadioControlProtocol.readData on message_length) := by
  unfold Hytera.RadioControlProtocol.readData
  tidy_reader [Hytera.RadioControlProtocol.CallReply.read_tidy, Hytera.RadioControlProtocol.RadioIdentificationReply.read_tidy _, Hytera.RadioControlProtocol.BroadcastStatusConfigurationRequest.read_tidy, Hytera.RadioControlProtocol.CallRequest.read_tidy, Hytera.RadioControlProtocol.RemoveRadioRequest.read_tidy, Hytera.RadioControlProtocol.BroadcastStatusConfigurationReply.read_tidy, Hytera.RadioControlProtocol.RemoveRadioReply.read_tidy, Hytera.RadioControlProtocol.GenericData.read_tidy _]

theorem Hytera.RadioControlProtocol.read_tidy : Tidy (Hytera.RadioControlProtocol.read) := by
  unfold Hytera.RadioControlProtocol.read
  tidy_reader [Hytera.RadioControlProtocol.readData_tidy _ _]

theorem Hytera.RadioId.read_tidy : Tidy (Hytera.RadioId.read) := by
  unfold Hytera.RadioId.read
  tidy_reader []

theorem Hytera.RadioRegistrationService.read_tidy : Tidy (Hytera.RadioRegistrationService.read) := by
  unfold Hytera.RadioRegistrationService.read
  tidy_reader [Hytera.RadioIp.read_tidy]

theorem Hytera.RealTimeTransportProtocol.FixedHeader.read_tidy : Tidy (Hytera.RealTimeTransportProtocol.FixedHeader.read) := by
  unfold Hytera.RealTimeTransportProtocol.FixedHeader.read
  tidy_reader []

theorem Hytera.RealTimeTransportProtocol.HeaderExtension.read_tidy : Tidy (Hytera.RealTimeTransportProtocol.HeaderExtension.read) := by
  unfold Hytera.RealTimeTransportProtocol.HeaderExtension.read
  tidy_reader [Hytera.RadioId.read_tidy]

theorem Hytera.TelemetryProtocol.StandardStatusReport.read_tidy : Tidy (Hytera.TelemetryProtocol.StandardStatusReport.read) := by
  unfold Hytera.TelemetryProtocol.StandardStatusReport.read
  tidy_reader [Hytera.RadioIp.read_tidy]

theorem Hytera.TelemetryProtocol.VioExtendedStatus.read_tidy : Tidy (Hytera.TelemetryProtocol.VioExtendedStatus.read) := by
  unfold Hytera.TelemetryProtocol.VioExtendedStatus.read
  tidy_reader []

theorem Hytera.TelemetryProtocol.RemoteControlAnswer.read_tidy : Tidy (Hytera.TelemetryProtocol.RemoteControlAnswer.read) := by
  unfold Hytera.TelemetryProtocol.RemoteControlAnswer.read
  tidy_reader [Hytera.RadioIp.read_tidy]

theorem Hytera.TelemetryProtocol.RemoteControlRequest.read_tidy : Tidy (Hytera.TelemetryProtocol.RemoteControlRequest.read) := by
  unfold Hytera.TelemetryProtocol.RemoteControlRequest.read
  tidy_reader [Hytera.RadioIp.read_tidy]

theorem Hytera.TelemetryProtocol.ExtendedStatusReport.read_tidy : Tidy (Hytera.TelemetryProtocol.ExtendedStatusReport.read) := by
  unfold Hytera.TelemetryProtocol.ExtendedStatusReport.read
  tidy_reader [Hytera.RadioIp.read_tidy, Hytera.TelemetryProtocol.VioExtendedStatus.read_tidy]

theorem Hytera.TelemetryProtocol.StandardStatusRequest.read_tidy : Tidy (Hytera.TelemetryProtocol.StandardStatusRequest.read) := by
  unfold Hytera.TelemetryProtocol.StandardStatusRequest.read
  tidy_reader [Hytera.RadioIp.read_tidy]

theorem Hytera.TelemetryProtocol.readData_tidy (on : EnumVal TelemetryProtocol.ServiceSpecificTypes) : Tidy (Hytera.TelemetryProtocol.readData on) := by
  unfold Hytera.TelemetryProtocol.readData
  tidy_reader [Hytera.TelemetryProtocol.StandardStatusRequest.read_tidy, Hytera.TelemetryProtocol.RemoteControlAnswer.read_tidy, Hytera.TelemetryProtocol.ExtendedStatusReport.read_tidy, Hytera.TelemetryProtocol.RemoteControlRequest.read_tidy, Hytera.TelemetryProtocol.StandardStatusReport.read_tidy]

theorem Hytera.TextMessageProtocol.optionFlagIsOne_tidy (f : EnumVal TextMessageProtocol.OptionFlags) : Tidy (Hytera.TextMessageProtocol.optionFlagIsOne f) := by
  unfold Hytera.TextMessageProtocol.optionFlagIsOne
  tidy_reader []

theorem Hytera.TextMessageProtocol.optionSumLen_tidy (f : EnumVal TextMessageProtocol.OptionFlags) (len : Option Nat) : Tidy (Hytera.TextMessageProtocol.optionSumLen f len) := by
  unfold Hytera.TextMessageProtocol.optionSumLen
  tidy_reader [Hytera.TextMessageProtocol.optionFlagIsOne_tidy _]

theorem Hytera.TextMessageProtocol.readOptionField_tidy (len : Option Nat) : Tidy (Hytera.TextMessageProtocol.readOptionField len) := by
  unfold Hytera.TextMessageProtocol.readOptionField
  tidy_reader []

theorem Hytera.TextMessageProtocol.read_tidy : Tidy (Hytera.TextMessageProtocol.read) := by
  unfold Hytera.TextMessageProtocol.read
  tidy_reader [Hytera.TextMessageProtocol.optionFlagIsOne_tidy _, Hytera.RadioIp.read_tidy, Hytera.TextMessageProtocol.optionSumLen_tidy _ _, Hytera.TextMessageProtocol.readOptionField_tidy _]

theorem Motorola.AutomaticRegistrationService.MessageHeaderBits.read_tidy : Tidy (Motorola.AutomaticRegistrationService.MessageHeaderBits.read) := by
  unfold Motorola.AutomaticRegistrationService.MessageHeaderBits.read
  tidy_reader []

theorem Motorola.AutomaticRegistrationService.DeviceRegistrationAcknowledgementHeader.read_tidy : Tidy (Motorola.AutomaticRegistrationService.DeviceRegistrationAcknowledgementHeader.read) := by
  unfold Motorola.AutomaticRegistrationService.DeviceRegistrationAcknowledgementHeader.read
  tidy_reader []

theorem Motorola.AutomaticRegistrationService.DeviceRegistrationAcknowledgementFailureReason.read_tidy : Tidy (Motorola.AutomaticRegistrationService.DeviceRegistrationAcknowledgementFailureReason.read) := by
  unfold Motorola.AutomaticRegistrationService.DeviceRegistrationAcknowledgementFailureReason.read
  tidy_reader []

theorem Motorola.AutomaticRegistrationService.AcknowledgementMessage.read_tidy (root_message_header : AutomaticRegistrationService.MessageHeaderBits) : Tidy (Motorola.AutomaticRegistrationService.AcknowledgementMessage.read root_message_header) := by
  unfold Motorola.AutomaticRegistrationService.AcknowledgementMessage.read
  tidy_reader [Motorola.AutomaticRegistrationService.DeviceRegistrationAcknowledgementHeader.read_tidy, Motorola.AutomaticRegistrationService.DeviceRegistrationAcknowledgementFailureReason.read_tidy]

theorem Motorola.AutomaticRegistrationService.DeviceRegistrationMessageHeader.read_tidy : Tidy (Motorola.AutomaticRegistrationService.DeviceRegistrationMessageHeader.read) := by
  unfold Motorola.AutomaticRegistrationService.DeviceRegistrationMessageHeader.read
  tidy_reader []

theorem Motorola.AutomaticRegistrationService.DeviceDeregistrationMessage.read_tidy : Tidy (Motorola.AutomaticRegistrationService.DeviceDeregistrationMessage.read) := by
  unfold Motorola.AutomaticRegistrationService.DeviceDeregistrationMessage.read
  tidy_reader []

theorem Motorola.AutomaticRegistrationService.DeviceRegistrationMessage.read_tidy (root_message_header : AutomaticRegistrationService.MessageHeaderBits) : Tidy (Motorola.AutomaticRegistrationService.DeviceRegistrationMessage.read root_message_header) := by
  unfold Motorola.AutomaticRegistrationService.DeviceRegistrationMessage.read
  tidy_reader [Motorola.AutomaticRegistrationService.DeviceRegistrationMessageHeader.read_tidy]

theorem Motorola.AutomaticRegistrationService.ArsQueryMessage.read_tidy : Tidy (Motorola.AutomaticRegistrationService.ArsQueryMessage.read) := by
  unfold Motorola.AutomaticRegistrationService.ArsQueryMessage.read
  tidy_reader []

theorem Motorola.AutomaticRegistrationService.readPduContent_tidy (on : Nat) (message_header : AutomaticRegistrationService.MessageHeaderBits) : Tidy (Motorola.AutomaticRegistrationService.readPduContent on message_header) := by
  unfold Motorola.AutomaticRegistrationService.readPduContent
  tidy_reader [Motorola.AutomaticRegistrationService.DeviceRegistrationMessage.read_tidy _, Motorola.AutomaticRegistrationService.DeviceDeregistrationMessage.read_tidy, Motorola.AutomaticRegistrationService.ArsQueryMessage.read_tidy, Motorola.AutomaticRegistrationService.AcknowledgementMessage.read_tidy _]

theorem Motorola.AutomaticRegistrationService.read_tidy : Tidy (Motorola.AutomaticRegistrationService.read) := by
  unfold Motorola.AutomaticRegistrationService.read
  tidy_reader [Motorola.AutomaticRegistrationService.MessageHeaderBits.read_tidy, Motorola.AutomaticRegistrationService.readPduContent_tidy _ _]

theorem Motorola.MotorolaBinaryXml.OpaqueElementValue.read_tidy : Tidy (Motorola.MotorolaBinaryXml.OpaqueElementValue.read) := by
  unfold Motorola.MotorolaBinaryXml.OpaqueElementValue.read
  tidy_reader []

theorem Motorola.MotorolaBinaryXml.Opaque1byteValue.read_tidy : Tidy (Motorola.MotorolaBinaryXml.Opaque1byteValue.read) := by
  unfold Motorola.MotorolaBinaryXml.Opaque1byteValue.read
  tidy_reader []

theorem Motorola.MotorolaBinaryXml.Opaque3byteValue.read_tidy : Tidy (Motorola.MotorolaBinaryXml.Opaque3byteValue.read) := by
  unfold Motorola.MotorolaBinaryXml.Opaque3byteValue.read
  tidy_reader []

theorem Motorola.MotorolaBinaryXml.Opaque5byteValue.read_tidy : Tidy (Motorola.MotorolaBinaryXml.Opaque5byteValue.read) := by
  unfold Motorola.MotorolaBinaryXml.Opaque5byteValue.read
  tidy_reader []

theorem Motorola.MotorolaBinaryXml.Opaque2byteValue.read_tidy : Tidy (Motorola.MotorolaBinaryXml.Opaque2byteValue.read) := by
  unfold Motorola.MotorolaBinaryXml.Opaque2byteValue.read
  tidy_reader []

theorem Motorola.MotorolaBinaryXml.Opaque4byteValue.read_tidy : Tidy (Motorola.MotorolaBinaryXml.Opaque4byteValue.read) := by
  unfold Motorola.MotorolaBinaryXml.Opaque4byteValue.read
  tidy_reader []

theorem Motorola.TextMessageProtocol.MessageHeaderBits.read_tidy : Tidy (Motorola.TextMessageProtocol.MessageHeaderBits.read) := by
  unfold Motorola.TextMessageProtocol.MessageHeaderBits.read
  tidy_reader []

theorem Motorola.TextMessageProtocol.TextMessageHeaderSequenceAndEncoding.read_tidy : Tidy (Motorola.TextMessageProtocol.TextMessageHeaderSequenceAndEncoding.read) := by
  unfold Motorola.TextMessageProtocol.TextMessageHeaderSequenceAndEncoding.read
  tidy_reader []

theorem Motorola.TextMessageProtocol.TextMessage.read_tidy (root_message_header : TextMessageProtocol.MessageHeaderBits) : Tidy (Motorola.TextMessageProtocol.TextMessage.read root_message_header) := by
  unfold Motorola.TextMessageProtocol.TextMessage.read
  tidy_reader [Motorola.TextMessageProtocol.TextMessageHeaderSequenceAndEncoding.read_tidy]

theorem Motorola.TextMessageProtocol.TmsServiceAvailabilityHeader.read_tidy : Tidy (Motorola.TextMessageProtocol.TmsServiceAvailabilityHeader.read) := by
  unfold Motorola.TextMessageProtocol.TmsServiceAvailabilityHeader.read
  tidy_reader []

theorem Motorola.TextMessageProtocol.TmsServiceAvailability.read_tidy (root_message_header : TextMessageProtocol.MessageHeaderBits) : Tidy (Motorola.TextMessageProtocol.TmsServiceAvailability.read root_message_header) := by
  unfold Motorola.TextMessageProtocol.TmsServiceAvailability.read
  tidy_reader [Motorola.TextMessageProtocol.TmsServiceAvailabilityHeader.read_tidy]

theorem Motorola.TextMessageProtocol.TmsAcknowledgementHeaderSequenceNumber.read_tidy : Tidy (Motorola.TextMessageProtocol.TmsAcknowledgementHeaderSequenceNumber.read) := by
  unfold Motorola.TextMessageProtocol.TmsAcknowledgementHeaderSequenceNumber.read
  tidy_reader []

theorem Motorola.TextMessageProtocol.TmsAcknowledgement.read_tidy (root_message_header : TextMessageProtocol.MessageHeaderBits) : Tidy (Motorola.TextMessageProtocol.TmsAcknowledgement.read root_message_header) := by
  unfold Motorola.TextMessageProtocol.TmsAcknowledgement.read
  tidy_reader [Motorola.TextMessageProtocol.TmsAcknowledgementHeaderSequenceNumber.read_tidy]

theorem Motorola.TextMessageProtocol.TmsServiceAvailabilityAcknowledgement.read_tidy : Tidy (Motorola.TextMessageProtocol.TmsServiceAvailabilityAcknowledgement.read) := by
  unfold Motorola.TextMessageProtocol.TmsServiceAvailabilityAcknowledgement.read
  tidy_reader []

theorem Motorola.TextMessageProtocol.readPduContent_tidy (on : Nat) (message_header : TextMessageProtocol.MessageHeaderBits) : Tidy (Motorola.TextMessageProtocol.readPduContent on message_header) := by
  unfold Motorola.TextMessageProtocol.readPduContent
  tidy_reader [Motorola.TextMessageProtocol.TmsServiceAvailability.read_tidy _, Motorola.TextMessageProtocol.TmsAcknowledgement.read_tidy _, Motorola.TextMessageProtocol.TextMessage.read_tidy _]

theorem Motorola.TextMessageProtocol.read_tidy : Tidy (Motorola.TextMessageProtocol.read) := by
  unfold Motorola.TextMessageProtocol.read
  tidy_reader [Motorola.TextMessageProtocol.MessageHeaderBits.read_tidy, Motorola.TextMessageProtocol.readPduContent_tidy _ _]

end Dmr
