import Verif.ShiftMore
import Verif.LocalList
/-
The decoders for which it does not matter where in the stream the structure starts, as one list (generated by tools/mkshift.py from
the model: all classes without parameters but the exceptions named in Props/Positions.lean).
-/

namespace Dmr

/-- See the head of this file. -/
def relocatableDecoders : List Decoder := [
  ⟨"Etsi.DmrCsbk.NegativeAckResponseData", _, Etsi.DmrCsbk.NegativeAckResponseData.read⟩,
  ⟨"Etsi.DmrCsbk.ServiceOptions", _, Etsi.DmrCsbk.ServiceOptions.read⟩,
  ⟨"Etsi.DmrCsbk.UnitToUnitVoiceRequestData", _, Etsi.DmrCsbk.UnitToUnitVoiceRequestData.read⟩,
  ⟨"Etsi.DmrCsbk.PreambleData", _, Etsi.DmrCsbk.PreambleData.read⟩,
  ⟨"Etsi.DmrCsbk.ChannelTimingData", _, Etsi.DmrCsbk.ChannelTimingData.read⟩,
  ⟨"Etsi.DmrCsbk.BsOutboundActivationData", _, Etsi.DmrCsbk.BsOutboundActivationData.read⟩,
  ⟨"Etsi.DmrCsbk.UnitToUnitVoiceAnswerData", _, Etsi.DmrCsbk.UnitToUnitVoiceAnswerData.read⟩,
  ⟨"Etsi.DmrCsbk", _, Etsi.DmrCsbk.read⟩,
  ⟨"Etsi.DmrData.Rate1LastBlockUnconfirmed", _, Etsi.DmrData.Rate1LastBlockUnconfirmed.read⟩,
  ⟨"Etsi.DmrData.Rate12LastBlockConfirmed", _, Etsi.DmrData.Rate12LastBlockConfirmed.read⟩,
  ⟨"Etsi.DmrData.Rate12Confirmed", _, Etsi.DmrData.Rate12Confirmed.read⟩,
  ⟨"Etsi.DmrData.Rate34LastBlockUnconfirmed", _, Etsi.DmrData.Rate34LastBlockUnconfirmed.read⟩,
  ⟨"Etsi.DmrData.Rate1LastBlockConfirmed", _, Etsi.DmrData.Rate1LastBlockConfirmed.read⟩,
  ⟨"Etsi.DmrData.Rate1Unconfirmed", _, Etsi.DmrData.Rate1Unconfirmed.read⟩,
  ⟨"Etsi.DmrData.UdtLastBlock", _, Etsi.DmrData.UdtLastBlock.read⟩,
  ⟨"Etsi.DmrData.Rate34Confirmed", _, Etsi.DmrData.Rate34Confirmed.read⟩,
  ⟨"Etsi.DmrData.Rate34LastBlockConfirmed", _, Etsi.DmrData.Rate34LastBlockConfirmed.read⟩,
  ⟨"Etsi.DmrData.Rate34Unconfirmed", _, Etsi.DmrData.Rate34Unconfirmed.read⟩,
  ⟨"Etsi.DmrData.Rate12LastBlockUnconfirmed", _, Etsi.DmrData.Rate12LastBlockUnconfirmed.read⟩,
  ⟨"Etsi.DmrData.Rate1Confirmed", _, Etsi.DmrData.Rate1Confirmed.read⟩,
  ⟨"Etsi.DmrData.Rate12Unconfirmed", _, Etsi.DmrData.Rate12Unconfirmed.read⟩,
  ⟨"Etsi.DmrData", _, Etsi.DmrData.read⟩,
  ⟨"Etsi.DmrDataHeader.DataHeaderShortRaw", _, Etsi.DmrDataHeader.DataHeaderShortRaw.read⟩,
  ⟨"Etsi.DmrDataHeader.DataHeaderProprietary", _, Etsi.DmrDataHeader.DataHeaderProprietary.read⟩,
  ⟨"Etsi.DmrDataHeader.DataHeaderUndefined", _, Etsi.DmrDataHeader.DataHeaderUndefined.read⟩,
  ⟨"Etsi.DmrDataHeader.DataHeaderShortStatusPrecoded", _, Etsi.DmrDataHeader.DataHeaderShortStatusPrecoded.read⟩,
  ⟨"Etsi.DmrDataHeader.DataHeaderResponse", _, Etsi.DmrDataHeader.DataHeaderResponse.read⟩,
  ⟨"Etsi.DmrDataHeader.DataHeaderConfirmed", _, Etsi.DmrDataHeader.DataHeaderConfirmed.read⟩,
  ⟨"Etsi.DmrDataHeader.DataHeaderUnconfirmed", _, Etsi.DmrDataHeader.DataHeaderUnconfirmed.read⟩,
  ⟨"Etsi.DmrDataHeader.DataHeaderShortDefined", _, Etsi.DmrDataHeader.DataHeaderShortDefined.read⟩,
  ⟨"Etsi.DmrDataHeader.DataHeaderUdt", _, Etsi.DmrDataHeader.DataHeaderUdt.read⟩,
  ⟨"Etsi.DmrDataHeader", _, Etsi.DmrDataHeader.read⟩,
  ⟨"Etsi.DmrIpUdp.UdpIpv4CompressedHeader", _, Etsi.DmrIpUdp.UdpIpv4CompressedHeader.read⟩,
  ⟨"Etsi.DmrIpUdp", _, Etsi.DmrIpUdp.read⟩,
  ⟨"Etsi.FullLinkControl.GpsInfoLcPdu", _, Etsi.FullLinkControl.GpsInfoLcPdu.read⟩,
  ⟨"Etsi.FullLinkControl.GroupVoiceChannelUser", _, Etsi.FullLinkControl.GroupVoiceChannelUser.read⟩,
  ⟨"Etsi.FullLinkControl.UnitToUnitVoiceChannelUser", _, Etsi.FullLinkControl.UnitToUnitVoiceChannelUser.read⟩,
  ⟨"Etsi.FullLinkControl.TalkerAliasHeader", _, Etsi.FullLinkControl.TalkerAliasHeader.read⟩,
  ⟨"Etsi.FullLinkControl.TalkerAliasContinuation", _, Etsi.FullLinkControl.TalkerAliasContinuation.read⟩,
  ⟨"Homebrew.Homebrew2015.TypeMasterPing", _, Homebrew.Homebrew2015.TypeMasterPing.read⟩,
  ⟨"Homebrew.Homebrew2015.TypeRepeaterPong", _, Homebrew.Homebrew2015.TypeRepeaterPong.read⟩,
  ⟨"Homebrew.Homebrew2015.TypeRepeaterClosing", _, Homebrew.Homebrew2015.TypeRepeaterClosing.read⟩,
  ⟨"Homebrew.Homebrew2015.TypeRepeaterConfiguration", _, Homebrew.Homebrew2015.TypeRepeaterConfiguration.read⟩,
  ⟨"Homebrew.Homebrew2015.TypeRepeaterLoginResponse", _, Homebrew.Homebrew2015.TypeRepeaterLoginResponse.read⟩,
  ⟨"Homebrew.Homebrew2015.TypeRepeaterLoginRequest", _, Homebrew.Homebrew2015.TypeRepeaterLoginRequest.read⟩,
  ⟨"Homebrew.Homebrew2015.TypeMasterNotAccept", _, Homebrew.Homebrew2015.TypeMasterNotAccept.read⟩,
  ⟨"Homebrew.Homebrew2015.TypeMasterRepeaterAck", _, Homebrew.Homebrew2015.TypeMasterRepeaterAck.read⟩,
  ⟨"Homebrew.Homebrew2015.TypeMasterClosing", _, Homebrew.Homebrew2015.TypeMasterClosing.read⟩,
  ⟨"Homebrew.Homebrew2015.TypeDmrData", _, Homebrew.Homebrew2015.TypeDmrData.read⟩,
  ⟨"Homebrew.Homebrew2015.TypeRepeaterOptions", _, Homebrew.Homebrew2015.TypeRepeaterOptions.read⟩,
  ⟨"Homebrew.Mmdvm2020.TypeMasterPong", _, Homebrew.Mmdvm2020.TypeMasterPong.read⟩,
  ⟨"Homebrew.Mmdvm2020.TypeRadioPosition", _, Homebrew.Mmdvm2020.TypeRadioPosition.read⟩,
  ⟨"Homebrew.Mmdvm2020.TypeTalkerAlias", _, Homebrew.Mmdvm2020.TypeTalkerAlias.read⟩,
  ⟨"Homebrew.Mmdvm2020.TypeRepeaterClosing", _, Homebrew.Mmdvm2020.TypeRepeaterClosing.read⟩,
  ⟨"Homebrew.Mmdvm2020.TypeRepeaterConfiguration", _, Homebrew.Mmdvm2020.TypeRepeaterConfiguration.read⟩,
  ⟨"Homebrew.Mmdvm2020.TypeRepeaterLoginResponse", _, Homebrew.Mmdvm2020.TypeRepeaterLoginResponse.read⟩,
  ⟨"Homebrew.Mmdvm2020.TypeRepeaterLoginRequest", _, Homebrew.Mmdvm2020.TypeRepeaterLoginRequest.read⟩,
  ⟨"Homebrew.Mmdvm2020.TypeMasterNotAccept", _, Homebrew.Mmdvm2020.TypeMasterNotAccept.read⟩,
  ⟨"Homebrew.Mmdvm2020.TypeUnknown", _, Homebrew.Mmdvm2020.TypeUnknown.read⟩,
  ⟨"Homebrew.Mmdvm2020.TypeMasterRepeaterAck", _, Homebrew.Mmdvm2020.TypeMasterRepeaterAck.read⟩,
  ⟨"Homebrew.Mmdvm2020.TypeMasterClosing", _, Homebrew.Mmdvm2020.TypeMasterClosing.read⟩,
  ⟨"Homebrew.Mmdvm2020.TypeDmrData", _, Homebrew.Mmdvm2020.TypeDmrData.read⟩,
  ⟨"Homebrew.Mmdvm2020.TypeRepeaterBeacon", _, Homebrew.Mmdvm2020.TypeRepeaterBeacon.read⟩,
  ⟨"Homebrew.Mmdvm2020.TypeRepeaterOptions", _, Homebrew.Mmdvm2020.TypeRepeaterOptions.read⟩,
  ⟨"Homebrew.Mmdvm2020.TypeRepeaterPing", _, Homebrew.Mmdvm2020.TypeRepeaterPing.read⟩,
  ⟨"Hytera.RadioIp", _, Hytera.RadioIp.read⟩,
  ⟨"Hytera.DataDeliveryStates", _, Hytera.DataDeliveryStates.read⟩,
  ⟨"Hytera.DataTransmitProtocol.LastDataSlice", _, Hytera.DataTransmitProtocol.LastDataSlice.read⟩,
  ⟨"Hytera.DataTransmitProtocol.DataSliceAnswer", _, Hytera.DataTransmitProtocol.DataSliceAnswer.read⟩,
  ⟨"Hytera.DataTransmitProtocol.LastDataSliceAnswer", _, Hytera.DataTransmitProtocol.LastDataSliceAnswer.read⟩,
  ⟨"Hytera.DataTransmitProtocol.DtpAnswer", _, Hytera.DataTransmitProtocol.DtpAnswer.read⟩,
  ⟨"Hytera.DataTransmitProtocol", _, Hytera.DataTransmitProtocol.read⟩,
  ⟨"Hytera.Datetimestring", _, Hytera.Datetimestring.read⟩,
  ⟨"Hytera.Gpsdata", _, Hytera.Gpsdata.read⟩,
  ⟨"Hytera.HyteraDmrApplicationProtocol.UndefinedProtocol", _, Hytera.HyteraDmrApplicationProtocol.UndefinedProtocol.read⟩,
  ⟨"Hytera.HyteraSimpleTransportReliabilityProtocol.Option", _, Hytera.HyteraSimpleTransportReliabilityProtocol.Option.read⟩,
  ⟨"Hytera.Intervalstring", _, Hytera.Intervalstring.read⟩,
  ⟨"Hytera.IpSiteConnectHeartbeat.Keepalive", _, Hytera.IpSiteConnectHeartbeat.Keepalive.read⟩,
  ⟨"Hytera.IpSiteConnectHeartbeat.PingPong", _, Hytera.IpSiteConnectHeartbeat.PingPong.read⟩,
  ⟨"Hytera.IpSiteConnectHeartbeat.Unknown", _, Hytera.IpSiteConnectHeartbeat.Unknown.read⟩,
  ⟨"Hytera.IpSiteConnectProtocol", _, Hytera.IpSiteConnectProtocol.read⟩,
  ⟨"Hytera.LocationProtocol.TriggeredReportStopAnswer", _, Hytera.LocationProtocol.TriggeredReportStopAnswer.read⟩,
  ⟨"Hytera.LocationProtocol.ConditionReportRequest", _, Hytera.LocationProtocol.ConditionReportRequest.read⟩,
  ⟨"Hytera.LocationProtocol.QuickGpsPayload", _, Hytera.LocationProtocol.QuickGpsPayload.read⟩,
  ⟨"Hytera.LocationProtocol.ConditionQuickGpsRequest", _, Hytera.LocationProtocol.ConditionQuickGpsRequest.read⟩,
  ⟨"Hytera.LocationProtocol.ConditionReport", _, Hytera.LocationProtocol.ConditionReport.read⟩,
  ⟨"Hytera.LocationProtocol.EmergencyReport", _, Hytera.LocationProtocol.EmergencyReport.read⟩,
  ⟨"Hytera.LocationProtocol.TriggeredReportAnswer", _, Hytera.LocationProtocol.TriggeredReportAnswer.read⟩,
  ⟨"Hytera.LocationProtocol.StandardAnswerWithRssi", _, Hytera.LocationProtocol.StandardAnswerWithRssi.read⟩,
  ⟨"Hytera.LocationProtocol.StandardRequest", _, Hytera.LocationProtocol.StandardRequest.read⟩,
  ⟨"Hytera.LocationProtocol.TriggeredReportRequest", _, Hytera.LocationProtocol.TriggeredReportRequest.read⟩,
  ⟨"Hytera.LocationProtocol.StandardAnswer", _, Hytera.LocationProtocol.StandardAnswer.read⟩,
  ⟨"Hytera.LocationProtocol.ConditionReportAnswer", _, Hytera.LocationProtocol.ConditionReportAnswer.read⟩,
  ⟨"Hytera.LocationProtocol.EmergencyReportStopRequest", _, Hytera.LocationProtocol.EmergencyReportStopRequest.read⟩,
  ⟨"Hytera.LocationProtocol.ConditionQuickGpsAnswer", _, Hytera.LocationProtocol.ConditionQuickGpsAnswer.read⟩,
  ⟨"Hytera.LocationProtocol.TriggeredReport", _, Hytera.LocationProtocol.TriggeredReport.read⟩,
  ⟨"Hytera.LocationProtocol.ConditionReportWithRssi", _, Hytera.LocationProtocol.ConditionReportWithRssi.read⟩,
  ⟨"Hytera.LocationProtocol.EmergencyReportStopAnswer", _, Hytera.LocationProtocol.EmergencyReportStopAnswer.read⟩,
  ⟨"Hytera.LocationProtocol.TriggeredReportStopRequest", _, Hytera.LocationProtocol.TriggeredReportStopRequest.read⟩,
  ⟨"Hytera.LocationProtocol", _, Hytera.LocationProtocol.read⟩,
  ⟨"Hytera.RadioControlProtocol.BroadcastStatusConfigurationReply", _, Hytera.RadioControlProtocol.BroadcastStatusConfigurationReply.read⟩,
  ⟨"Hytera.RadioControlProtocol.BroadcastConfiguration", _, Hytera.RadioControlProtocol.BroadcastConfiguration.read⟩,
  ⟨"Hytera.RadioControlProtocol.BroadcastStatusConfigurationRequest", _, Hytera.RadioControlProtocol.BroadcastStatusConfigurationRequest.read⟩,
  ⟨"Hytera.RadioControlProtocol.CallRequest", _, Hytera.RadioControlProtocol.CallRequest.read⟩,
  ⟨"Hytera.RadioControlProtocol.RemoveRadioReply", _, Hytera.RadioControlProtocol.RemoveRadioReply.read⟩,
  ⟨"Hytera.RadioControlProtocol.RemoveRadioRequest", _, Hytera.RadioControlProtocol.RemoveRadioRequest.read⟩,
  ⟨"Hytera.RadioControlProtocol.CallReply", _, Hytera.RadioControlProtocol.CallReply.read⟩,
  ⟨"Hytera.RadioControlProtocol", _, Hytera.RadioControlProtocol.read⟩,
  ⟨"Hytera.RadioId", _, Hytera.RadioId.read⟩,
  ⟨"Hytera.RadioRegistrationService", _, Hytera.RadioRegistrationService.read⟩,
  ⟨"Hytera.RealTimeTransportProtocol.FixedHeader", _, Hytera.RealTimeTransportProtocol.FixedHeader.read⟩,
  ⟨"Hytera.RealTimeTransportProtocol.HeaderExtension", _, Hytera.RealTimeTransportProtocol.HeaderExtension.read⟩,
  ⟨"Hytera.TelemetryProtocol.StandardStatusReport", _, Hytera.TelemetryProtocol.StandardStatusReport.read⟩,
  ⟨"Hytera.TelemetryProtocol.VioExtendedStatus", _, Hytera.TelemetryProtocol.VioExtendedStatus.read⟩,
  ⟨"Hytera.TelemetryProtocol.RemoteControlAnswer", _, Hytera.TelemetryProtocol.RemoteControlAnswer.read⟩,
  ⟨"Hytera.TelemetryProtocol.RemoteControlRequest", _, Hytera.TelemetryProtocol.RemoteControlRequest.read⟩,
  ⟨"Hytera.TelemetryProtocol.ExtendedStatusReport", _, Hytera.TelemetryProtocol.ExtendedStatusReport.read⟩,
  ⟨"Hytera.TelemetryProtocol.StandardStatusRequest", _, Hytera.TelemetryProtocol.StandardStatusRequest.read⟩,
  ⟨"Hytera.TextMessageProtocol", _, Hytera.TextMessageProtocol.read⟩,
  ⟨"Motorola.AutomaticRegistrationService.MessageHeaderBits", _, Motorola.AutomaticRegistrationService.MessageHeaderBits.read⟩,
  ⟨"Motorola.AutomaticRegistrationService.DeviceRegistrationAcknowledgementHeader", _, Motorola.AutomaticRegistrationService.DeviceRegistrationAcknowledgementHeader.read⟩,
  ⟨"Motorola.AutomaticRegistrationService.DeviceRegistrationAcknowledgementFailureReason", _, Motorola.AutomaticRegistrationService.DeviceRegistrationAcknowledgementFailureReason.read⟩,
  ⟨"Motorola.AutomaticRegistrationService.DeviceRegistrationMessageHeader", _, Motorola.AutomaticRegistrationService.DeviceRegistrationMessageHeader.read⟩,
  ⟨"Motorola.AutomaticRegistrationService.DeviceDeregistrationMessage", _, Motorola.AutomaticRegistrationService.DeviceDeregistrationMessage.read⟩,
  ⟨"Motorola.AutomaticRegistrationService.ArsQueryMessage", _, Motorola.AutomaticRegistrationService.ArsQueryMessage.read⟩,
  ⟨"Motorola.AutomaticRegistrationService", _, Motorola.AutomaticRegistrationService.read⟩,
  ⟨"Motorola.MotorolaBinaryXml.OpaqueElementValue", _, Motorola.MotorolaBinaryXml.OpaqueElementValue.read⟩,
  ⟨"Motorola.MotorolaBinaryXml.Opaque1byteValue", _, Motorola.MotorolaBinaryXml.Opaque1byteValue.read⟩,
  ⟨"Motorola.MotorolaBinaryXml.Opaque3byteValue", _, Motorola.MotorolaBinaryXml.Opaque3byteValue.read⟩,
  ⟨"Motorola.MotorolaBinaryXml.Opaque5byteValue", _, Motorola.MotorolaBinaryXml.Opaque5byteValue.read⟩,
  ⟨"Motorola.MotorolaBinaryXml.Opaque2byteValue", _, Motorola.MotorolaBinaryXml.Opaque2byteValue.read⟩,
  ⟨"Motorola.MotorolaBinaryXml.Opaque4byteValue", _, Motorola.MotorolaBinaryXml.Opaque4byteValue.read⟩,
  ⟨"Motorola.TextMessageProtocol.MessageHeaderBits", _, Motorola.TextMessageProtocol.MessageHeaderBits.read⟩,
  ⟨"Motorola.TextMessageProtocol.TextMessageHeaderSequenceAndEncoding", _, Motorola.TextMessageProtocol.TextMessageHeaderSequenceAndEncoding.read⟩,
  ⟨"Motorola.TextMessageProtocol.TmsServiceAvailabilityHeader", _, Motorola.TextMessageProtocol.TmsServiceAvailabilityHeader.read⟩,
  ⟨"Motorola.TextMessageProtocol.TmsAcknowledgementHeaderSequenceNumber", _, Motorola.TextMessageProtocol.TmsAcknowledgementHeaderSequenceNumber.read⟩,
  ⟨"Motorola.TextMessageProtocol.TmsServiceAvailabilityAcknowledgement", _, Motorola.TextMessageProtocol.TmsServiceAvailabilityAcknowledgement.read⟩,
  ⟨"Motorola.TextMessageProtocol", _, Motorola.TextMessageProtocol.read⟩,
  ⟨"Motorola.MotorolaBinaryXml.Uintvar", _, Motorola.MotorolaBinaryXml.Uintvar.read⟩,
  ⟨"Motorola.MotorolaBinaryXml.Sintvar", _, Motorola.MotorolaBinaryXml.Sintvar.read⟩,
  ⟨"Motorola.MotorolaBinaryXml.ConstantDataTableReference", _, Motorola.MotorolaBinaryXml.ConstantDataTableReference.read⟩,
  ⟨"Motorola.MotorolaBinaryXml.LrrpElement", _, Motorola.MotorolaBinaryXml.LrrpElement.read⟩,
  ⟨"Motorola.MotorolaBinaryXml.LrrpImmediateRequestNcdt", _, Motorola.MotorolaBinaryXml.LrrpImmediateRequestNcdt.read⟩,
  ⟨"Motorola.MotorolaBinaryXml.MbxmlDocument", _, Motorola.MotorolaBinaryXml.MbxmlDocument.read⟩,
  ⟨"Motorola.MotorolaBinaryXml.Sfloatvar", _, Motorola.MotorolaBinaryXml.Sfloatvar.read⟩,
  ⟨"Motorola.MotorolaBinaryXml.Ufloatvar", _, Motorola.MotorolaBinaryXml.Ufloatvar.read⟩,
  ⟨"Motorola.MotorolaBinaryXml", _, Motorola.MotorolaBinaryXml.read⟩,
  ⟨"Hytera.RealTimeTransportProtocol", _, Hytera.RealTimeTransportProtocol.read⟩]

theorem relocatableDecoders_shift : ∀ d ∈ relocatableDecoders, Shifts d.read := by
  unfold relocatableDecoders
  refine List.forall_mem_cons.mpr ⟨Etsi.DmrCsbk.NegativeAckResponseData.read_shifts, ?_⟩
  refine List.forall_mem_cons.mpr ⟨Etsi.DmrCsbk.ServiceOptions.read_shifts, ?_⟩
  refine List.forall_mem_cons.mpr ⟨Etsi.DmrCsbk.UnitToUnitVoiceRequestData.read_shifts, ?_⟩
  refine List.forall_mem_cons.mpr ⟨Etsi.DmrCsbk.PreambleData.read_shifts, ?_⟩
  refine List.forall_mem_cons.mpr ⟨Etsi.DmrCsbk.ChannelTimingData.read_shifts, ?_⟩
  refine List.forall_mem_cons.mpr ⟨Etsi.DmrCsbk.BsOutboundActivationData.read_shifts, ?_⟩
  refine List.forall_mem_cons.mpr ⟨Etsi.DmrCsbk.UnitToUnitVoiceAnswerData.read_shifts, ?_⟩
  refine List.forall_mem_cons.mpr ⟨Etsi.DmrCsbk.read_shifts, ?_⟩
  refine List.forall_mem_cons.mpr ⟨Etsi.DmrData.Rate1LastBlockUnconfirmed.read_shifts, ?_⟩
  refine List.forall_mem_cons.mpr ⟨Etsi.DmrData.Rate12LastBlockConfirmed.read_shifts, ?_⟩
  refine List.forall_mem_cons.mpr ⟨Etsi.DmrData.Rate12Confirmed.read_shifts, ?_⟩
  refine List.forall_mem_cons.mpr ⟨Etsi.DmrData.Rate34LastBlockUnconfirmed.read_shifts, ?_⟩
  refine List.forall_mem_cons.mpr ⟨Etsi.DmrData.Rate1LastBlockConfirmed.read_shifts, ?_⟩
  refine List.forall_mem_cons.mpr ⟨Etsi.DmrData.Rate1Unconfirmed.read_shifts, ?_⟩
  refine List.forall_mem_cons.mpr ⟨Etsi.DmrData.UdtLastBlock.read_shifts, ?_⟩
  refine List.forall_mem_cons.mpr ⟨Etsi.DmrData.Rate34Confirmed.read_shifts, ?_⟩
  refine List.forall_mem_cons.mpr ⟨Etsi.DmrData.Rate34LastBlockConfirmed.read_shifts, ?_⟩
  refine List.forall_mem_cons.mpr ⟨Etsi.DmrData.Rate34Unconfirmed.read_shifts, ?_⟩
  refine List.forall_mem_cons.mpr ⟨Etsi.DmrData.Rate12LastBlockUnconfirmed.read_shifts, ?_⟩
  refine List.forall_mem_cons.mpr ⟨Etsi.DmrData.Rate1Confirmed.read_shifts, ?_⟩
  refine List.forall_mem_cons.mpr ⟨Etsi.DmrData.Rate12Unconfirmed.read_shifts, ?_⟩
  refine List.forall_mem_cons.mpr ⟨Etsi.DmrData.read_shifts, ?_⟩
  refine List.forall_mem_cons.mpr ⟨Etsi.DmrDataHeader.DataHeaderShortRaw.read_shifts, ?_⟩
  refine List.forall_mem_cons.mpr ⟨Etsi.DmrDataHeader.DataHeaderProprietary.read_shifts, ?_⟩
  refine List.forall_mem_cons.mpr ⟨Etsi.DmrDataHeader.DataHeaderUndefined.read_shifts, ?_⟩
  refine List.forall_mem_cons.mpr ⟨Etsi.DmrDataHeader.DataHeaderShortStatusPrecoded.read_shifts, ?_⟩
  refine List.forall_mem_cons.mpr ⟨Etsi.DmrDataHeader.DataHeaderResponse.read_shifts, ?_⟩
  refine List.forall_mem_cons.mpr ⟨Etsi.DmrDataHeader.DataHeaderConfirmed.read_shifts, ?_⟩
  refine List.forall_mem_cons.mpr ⟨Etsi.DmrDataHeader.DataHeaderUnconfirmed.read_shifts, ?_⟩
  refine List.forall_mem_cons.mpr ⟨Etsi.DmrDataHeader.DataHeaderShortDefined.read_shifts, ?_⟩
  refine List.forall_mem_cons.mpr ⟨Etsi.DmrDataHeader.DataHeaderUdt.read_shifts, ?_⟩
  refine List.forall_mem_cons.mpr ⟨Etsi.DmrDataHeader.read_shifts, ?_⟩
  refine List.forall_mem_cons.mpr ⟨Etsi.DmrIpUdp.UdpIpv4CompressedHeader.read_shifts, ?_⟩
  refine List.forall_mem_cons.mpr ⟨Etsi.DmrIpUdp.read_shifts, ?_⟩
  refine List.forall_mem_cons.mpr ⟨Etsi.FullLinkControl.GpsInfoLcPdu.read_shifts, ?_⟩
  refine List.forall_mem_cons.mpr ⟨Etsi.FullLinkControl.GroupVoiceChannelUser.read_shifts, ?_⟩
  refine List.forall_mem_cons.mpr ⟨Etsi.FullLinkControl.UnitToUnitVoiceChannelUser.read_shifts, ?_⟩
  refine List.forall_mem_cons.mpr ⟨Etsi.FullLinkControl.TalkerAliasHeader.read_shifts, ?_⟩
  refine List.forall_mem_cons.mpr ⟨Etsi.FullLinkControl.TalkerAliasContinuation.read_shifts, ?_⟩
  refine List.forall_mem_cons.mpr ⟨Homebrew.Homebrew2015.TypeMasterPing.read_shifts, ?_⟩
  refine List.forall_mem_cons.mpr ⟨Homebrew.Homebrew2015.TypeRepeaterPong.read_shifts, ?_⟩
  refine List.forall_mem_cons.mpr ⟨Homebrew.Homebrew2015.TypeRepeaterClosing.read_shifts, ?_⟩
  refine List.forall_mem_cons.mpr ⟨Homebrew.Homebrew2015.TypeRepeaterConfiguration.read_shifts, ?_⟩
  refine List.forall_mem_cons.mpr ⟨Homebrew.Homebrew2015.TypeRepeaterLoginResponse.read_shifts, ?_⟩
  refine List.forall_mem_cons.mpr ⟨Homebrew.Homebrew2015.TypeRepeaterLoginRequest.read_shifts, ?_⟩
  refine List.forall_mem_cons.mpr ⟨Homebrew.Homebrew2015.TypeMasterNotAccept.read_shifts, ?_⟩
  refine List.forall_mem_cons.mpr ⟨Homebrew.Homebrew2015.TypeMasterRepeaterAck.read_shifts, ?_⟩
  refine List.forall_mem_cons.mpr ⟨Homebrew.Homebrew2015.TypeMasterClosing.read_shifts, ?_⟩
  refine List.forall_mem_cons.mpr ⟨Homebrew.Homebrew2015.TypeDmrData.read_shifts, ?_⟩
  refine List.forall_mem_cons.mpr ⟨Homebrew.Homebrew2015.TypeRepeaterOptions.read_shifts, ?_⟩
  refine List.forall_mem_cons.mpr ⟨Homebrew.Mmdvm2020.TypeMasterPong.read_shifts, ?_⟩
  refine List.forall_mem_cons.mpr ⟨Homebrew.Mmdvm2020.TypeRadioPosition.read_shifts, ?_⟩
  refine List.forall_mem_cons.mpr ⟨Homebrew.Mmdvm2020.TypeTalkerAlias.read_shifts, ?_⟩
  refine List.forall_mem_cons.mpr ⟨Homebrew.Mmdvm2020.TypeRepeaterClosing.read_shifts, ?_⟩
  refine List.forall_mem_cons.mpr ⟨Homebrew.Mmdvm2020.TypeRepeaterConfiguration.read_shifts, ?_⟩
  refine List.forall_mem_cons.mpr ⟨Homebrew.Mmdvm2020.TypeRepeaterLoginResponse.read_shifts, ?_⟩
  refine List.forall_mem_cons.mpr ⟨Homebrew.Mmdvm2020.TypeRepeaterLoginRequest.read_shifts, ?_⟩
  refine List.forall_mem_cons.mpr ⟨Homebrew.Mmdvm2020.TypeMasterNotAccept.read_shifts, ?_⟩
  refine List.forall_mem_cons.mpr ⟨Homebrew.Mmdvm2020.TypeUnknown.read_shifts, ?_⟩
  refine List.forall_mem_cons.mpr ⟨Homebrew.Mmdvm2020.TypeMasterRepeaterAck.read_shifts, ?_⟩
  refine List.forall_mem_cons.mpr ⟨Homebrew.Mmdvm2020.TypeMasterClosing.read_shifts, ?_⟩
  refine List.forall_mem_cons.mpr ⟨Homebrew.Mmdvm2020.TypeDmrData.read_shifts, ?_⟩
  refine List.forall_mem_cons.mpr ⟨Homebrew.Mmdvm2020.TypeRepeaterBeacon.read_shifts, ?_⟩
  refine List.forall_mem_cons.mpr ⟨Homebrew.Mmdvm2020.TypeRepeaterOptions.read_shifts, ?_⟩
  refine List.forall_mem_cons.mpr ⟨Homebrew.Mmdvm2020.TypeRepeaterPing.read_shifts, ?_⟩
  refine List.forall_mem_cons.mpr ⟨Hytera.RadioIp.read_shifts, ?_⟩
  refine List.forall_mem_cons.mpr ⟨Hytera.DataDeliveryStates.read_shifts, ?_⟩
  refine List.forall_mem_cons.mpr ⟨Hytera.DataTransmitProtocol.LastDataSlice.read_shifts, ?_⟩
  refine List.forall_mem_cons.mpr ⟨Hytera.DataTransmitProtocol.DataSliceAnswer.read_shifts, ?_⟩
  refine List.forall_mem_cons.mpr ⟨Hytera.DataTransmitProtocol.LastDataSliceAnswer.read_shifts, ?_⟩
  refine List.forall_mem_cons.mpr ⟨Hytera.DataTransmitProtocol.DtpAnswer.read_shifts, ?_⟩
  refine List.forall_mem_cons.mpr ⟨Hytera.DataTransmitProtocol.read_shifts, ?_⟩
  refine List.forall_mem_cons.mpr ⟨Hytera.Datetimestring.read_shifts, ?_⟩
  refine List.forall_mem_cons.mpr ⟨Hytera.Gpsdata.read_shifts, ?_⟩
  refine List.forall_mem_cons.mpr ⟨Hytera.HyteraDmrApplicationProtocol.UndefinedProtocol.read_shifts, ?_⟩
  refine List.forall_mem_cons.mpr ⟨Hytera.HyteraSimpleTransportReliabilityProtocol.Option.read_shifts, ?_⟩
  refine List.forall_mem_cons.mpr ⟨Hytera.Intervalstring.read_shifts, ?_⟩
  refine List.forall_mem_cons.mpr ⟨Hytera.IpSiteConnectHeartbeat.Keepalive.read_shifts, ?_⟩
  refine List.forall_mem_cons.mpr ⟨Hytera.IpSiteConnectHeartbeat.PingPong.read_shifts, ?_⟩
  refine List.forall_mem_cons.mpr ⟨Hytera.IpSiteConnectHeartbeat.Unknown.read_shifts, ?_⟩
  refine List.forall_mem_cons.mpr ⟨Hytera.IpSiteConnectProtocol.read_shifts, ?_⟩
  refine List.forall_mem_cons.mpr ⟨Hytera.LocationProtocol.TriggeredReportStopAnswer.read_shifts, ?_⟩
  refine List.forall_mem_cons.mpr ⟨Hytera.LocationProtocol.ConditionReportRequest.read_shifts, ?_⟩
  refine List.forall_mem_cons.mpr ⟨Hytera.LocationProtocol.QuickGpsPayload.read_shifts, ?_⟩
  refine List.forall_mem_cons.mpr ⟨Hytera.LocationProtocol.ConditionQuickGpsRequest.read_shifts, ?_⟩
  refine List.forall_mem_cons.mpr ⟨Hytera.LocationProtocol.ConditionReport.read_shifts, ?_⟩
  refine List.forall_mem_cons.mpr ⟨Hytera.LocationProtocol.EmergencyReport.read_shifts, ?_⟩
  refine List.forall_mem_cons.mpr ⟨Hytera.LocationProtocol.TriggeredReportAnswer.read_shifts, ?_⟩
  refine List.forall_mem_cons.mpr ⟨Hytera.LocationProtocol.StandardAnswerWithRssi.read_shifts, ?_⟩
  refine List.forall_mem_cons.mpr ⟨Hytera.LocationProtocol.StandardRequest.read_shifts, ?_⟩
  refine List.forall_mem_cons.mpr ⟨Hytera.LocationProtocol.TriggeredReportRequest.read_shifts, ?_⟩
  refine List.forall_mem_cons.mpr ⟨Hytera.LocationProtocol.StandardAnswer.read_shifts, ?_⟩
  refine List.forall_mem_cons.mpr ⟨Hytera.LocationProtocol.ConditionReportAnswer.read_shifts, ?_⟩
  refine List.forall_mem_cons.mpr ⟨Hytera.LocationProtocol.EmergencyReportStopRequest.read_shifts, ?_⟩
  refine List.forall_mem_cons.mpr ⟨Hytera.LocationProtocol.ConditionQuickGpsAnswer.read_shifts, ?_⟩
  refine List.forall_mem_cons.mpr ⟨Hytera.LocationProtocol.TriggeredReport.read_shifts, ?_⟩
  refine List.forall_mem_cons.mpr ⟨Hytera.LocationProtocol.ConditionReportWithRssi.read_shifts, ?_⟩
  refine List.forall_mem_cons.mpr ⟨Hytera.LocationProtocol.EmergencyReportStopAnswer.read_shifts, ?_⟩
  refine List.forall_mem_cons.mpr ⟨Hytera.LocationProtocol.TriggeredReportStopRequest.read_shifts, ?_⟩
  refine List.forall_mem_cons.mpr ⟨Hytera.LocationProtocol.read_shifts, ?_⟩
  refine List.forall_mem_cons.mpr ⟨Hytera.RadioControlProtocol.BroadcastStatusConfigurationReply.read_shifts, ?_⟩
  refine List.forall_mem_cons.mpr ⟨Hytera.RadioControlProtocol.BroadcastConfiguration.read_shifts, ?_⟩
  refine List.forall_mem_cons.mpr ⟨Hytera.RadioControlProtocol.BroadcastStatusConfigurationRequest.read_shifts, ?_⟩
  refine List.forall_mem_cons.mpr ⟨Hytera.RadioControlProtocol.CallRequest.read_shifts, ?_⟩
  refine List.forall_mem_cons.mpr ⟨Hytera.RadioControlProtocol.RemoveRadioReply.read_shifts, ?_⟩
  refine List.forall_mem_cons.mpr ⟨Hytera.RadioControlProtocol.RemoveRadioRequest.read_shifts, ?_⟩
  refine List.forall_mem_cons.mpr ⟨Hytera.RadioControlProtocol.CallReply.read_shifts, ?_⟩
  refine List.forall_mem_cons.mpr ⟨Hytera.RadioControlProtocol.read_shifts, ?_⟩
  refine List.forall_mem_cons.mpr ⟨Hytera.RadioId.read_shifts, ?_⟩
  refine List.forall_mem_cons.mpr ⟨Hytera.RadioRegistrationService.read_shifts, ?_⟩
  refine List.forall_mem_cons.mpr ⟨Hytera.RealTimeTransportProtocol.FixedHeader.read_shifts, ?_⟩
  refine List.forall_mem_cons.mpr ⟨Hytera.RealTimeTransportProtocol.HeaderExtension.read_shifts, ?_⟩
  refine List.forall_mem_cons.mpr ⟨Hytera.TelemetryProtocol.StandardStatusReport.read_shifts, ?_⟩
  refine List.forall_mem_cons.mpr ⟨Hytera.TelemetryProtocol.VioExtendedStatus.read_shifts, ?_⟩
  refine List.forall_mem_cons.mpr ⟨Hytera.TelemetryProtocol.RemoteControlAnswer.read_shifts, ?_⟩
  refine List.forall_mem_cons.mpr ⟨Hytera.TelemetryProtocol.RemoteControlRequest.read_shifts, ?_⟩
  refine List.forall_mem_cons.mpr ⟨Hytera.TelemetryProtocol.ExtendedStatusReport.read_shifts, ?_⟩
  refine List.forall_mem_cons.mpr ⟨Hytera.TelemetryProtocol.StandardStatusRequest.read_shifts, ?_⟩
  refine List.forall_mem_cons.mpr ⟨Hytera.TextMessageProtocol.read_shifts, ?_⟩
  refine List.forall_mem_cons.mpr ⟨Motorola.AutomaticRegistrationService.MessageHeaderBits.read_shifts, ?_⟩
  refine List.forall_mem_cons.mpr ⟨Motorola.AutomaticRegistrationService.DeviceRegistrationAcknowledgementHeader.read_shifts, ?_⟩
  refine List.forall_mem_cons.mpr ⟨Motorola.AutomaticRegistrationService.DeviceRegistrationAcknowledgementFailureReason.read_shifts, ?_⟩
  refine List.forall_mem_cons.mpr ⟨Motorola.AutomaticRegistrationService.DeviceRegistrationMessageHeader.read_shifts, ?_⟩
  refine List.forall_mem_cons.mpr ⟨Motorola.AutomaticRegistrationService.DeviceDeregistrationMessage.read_shifts, ?_⟩
  refine List.forall_mem_cons.mpr ⟨Motorola.AutomaticRegistrationService.ArsQueryMessage.read_shifts, ?_⟩
  refine List.forall_mem_cons.mpr ⟨Motorola.AutomaticRegistrationService.read_shifts, ?_⟩
  refine List.forall_mem_cons.mpr ⟨Motorola.MotorolaBinaryXml.OpaqueElementValue.read_shifts, ?_⟩
  refine List.forall_mem_cons.mpr ⟨Motorola.MotorolaBinaryXml.Opaque1byteValue.read_shifts, ?_⟩
  refine List.forall_mem_cons.mpr ⟨Motorola.MotorolaBinaryXml.Opaque3byteValue.read_shifts, ?_⟩
  refine List.forall_mem_cons.mpr ⟨Motorola.MotorolaBinaryXml.Opaque5byteValue.read_shifts, ?_⟩
  refine List.forall_mem_cons.mpr ⟨Motorola.MotorolaBinaryXml.Opaque2byteValue.read_shifts, ?_⟩
  refine List.forall_mem_cons.mpr ⟨Motorola.MotorolaBinaryXml.Opaque4byteValue.read_shifts, ?_⟩
  refine List.forall_mem_cons.mpr ⟨Motorola.TextMessageProtocol.MessageHeaderBits.read_shifts, ?_⟩
  refine List.forall_mem_cons.mpr ⟨Motorola.TextMessageProtocol.TextMessageHeaderSequenceAndEncoding.read_shifts, ?_⟩
  refine List.forall_mem_cons.mpr ⟨Motorola.TextMessageProtocol.TmsServiceAvailabilityHeader.read_shifts, ?_⟩
  refine List.forall_mem_cons.mpr ⟨Motorola.TextMessageProtocol.TmsAcknowledgementHeaderSequenceNumber.read_shifts, ?_⟩
  refine List.forall_mem_cons.mpr ⟨Motorola.TextMessageProtocol.TmsServiceAvailabilityAcknowledgement.read_shifts, ?_⟩
  refine List.forall_mem_cons.mpr ⟨Motorola.TextMessageProtocol.read_shifts, ?_⟩
  refine List.forall_mem_cons.mpr ⟨Motorola.MotorolaBinaryXml.Uintvar.read_shifts, ?_⟩
  refine List.forall_mem_cons.mpr ⟨Motorola.MotorolaBinaryXml.Sintvar.read_shifts, ?_⟩
  refine List.forall_mem_cons.mpr ⟨Motorola.MotorolaBinaryXml.ConstantDataTableReference.read_shifts, ?_⟩
  refine List.forall_mem_cons.mpr ⟨Motorola.MotorolaBinaryXml.LrrpElement.read_shifts, ?_⟩
  refine List.forall_mem_cons.mpr ⟨Motorola.MotorolaBinaryXml.LrrpImmediateRequestNcdt.read_shifts, ?_⟩
  refine List.forall_mem_cons.mpr ⟨Motorola.MotorolaBinaryXml.MbxmlDocument.read_shifts, ?_⟩
  refine List.forall_mem_cons.mpr ⟨Motorola.MotorolaBinaryXml.Sfloatvar.read_shifts, ?_⟩
  refine List.forall_mem_cons.mpr ⟨Motorola.MotorolaBinaryXml.Ufloatvar.read_shifts, ?_⟩
  refine List.forall_mem_cons.mpr ⟨Motorola.MotorolaBinaryXml.read_shifts, ?_⟩
  refine List.forall_mem_cons.mpr ⟨Hytera.RealTimeTransportProtocol.read_shifts, ?_⟩
  exact List.forall_mem_nil _

end Dmr
