import Verif.LocalFrames
/-
The decoders that do not look at the position, size or end of the stream, as one list (generated by tools/mklocal.py from
the model: all classes without parameters whose decoder is local in the sense of Verif/Local.lean).
-/

namespace Dmr

/-- A decoder class: its name and its `_read`. -/
structure Decoder where
  name : String
  Obj : Type
  read : Rd Obj

/-- Decoders that use only sequential reads. -/
def sequentialDecoders : List Decoder := [
  ⟨"Etsi.DmrCsbk.NegativeAckResponseData", _, Etsi.DmrCsbk.NegativeAckResponseData.read⟩,
  ⟨"Etsi.DmrCsbk.ServiceOptions", _, Etsi.DmrCsbk.ServiceOptions.read⟩,
  ⟨"Etsi.DmrCsbk.UnitToUnitVoiceRequestData", _, Etsi.DmrCsbk.UnitToUnitVoiceRequestData.read⟩,
  ⟨"Etsi.DmrCsbk.PreambleData", _, Etsi.DmrCsbk.PreambleData.read⟩,
  ⟨"Etsi.DmrCsbk.ChannelTimingData", _, Etsi.DmrCsbk.ChannelTimingData.read⟩,
  ⟨"Etsi.DmrCsbk.BsOutboundActivationData", _, Etsi.DmrCsbk.BsOutboundActivationData.read⟩,
  ⟨"Etsi.DmrCsbk.UnitToUnitVoiceAnswerData", _, Etsi.DmrCsbk.UnitToUnitVoiceAnswerData.read⟩,
  ⟨"Etsi.DmrCsbk", _, Etsi.DmrCsbk.read⟩,
  ⟨"Etsi.DmrData.Rate1LastBlockUnconfirmed", _, Etsi.DmrData.Rate1LastBlockUnconfirmed.read⟩,
  ⟨"Etsi.DmrData.Rate12LastBlockConfirmed", _, Etsi.DmrData.Rate12LastBlockConfirmed.read⟩,
  ⟨"Etsi.DmrData.Rate12Confirmed", _, Etsi.DmrData.Rate12Confirmed.read⟩,
  ⟨"Etsi.DmrData.Rate34LastBlockUnconfirmed", _, Etsi.DmrData.Rate34LastBlockUnconfirmed.read⟩,
  ⟨"Etsi.DmrData.Rate1LastBlockConfirmed", _, Etsi.DmrData.Rate1LastBlockConfirmed.read⟩,
  ⟨"Etsi.DmrData.Rate1Unconfirmed", _, Etsi.DmrData.Rate1Unconfirmed.read⟩,
  ⟨"Etsi.DmrData.UdtLastBlock", _, Etsi.DmrData.UdtLastBlock.read⟩,
  ⟨"Etsi.DmrData.Rate34Confirmed", _, Etsi.DmrData.Rate34Confirmed.read⟩,
  ⟨"Etsi.DmrData.Rate34LastBlockConfirmed", _, Etsi.DmrData.Rate34LastBlockConfirmed.read⟩,
  ⟨"Etsi.DmrData.Rate34Unconfirmed", _, Etsi.DmrData.Rate34Unconfirmed.read⟩,
  ⟨"Etsi.DmrData.Rate12LastBlockUnconfirmed", _, Etsi.DmrData.Rate12LastBlockUnconfirmed.read⟩,
  ⟨"Etsi.DmrData.Rate1Confirmed", _, Etsi.DmrData.Rate1Confirmed.read⟩,
  ⟨"Etsi.DmrData.Rate12Unconfirmed", _, Etsi.DmrData.Rate12Unconfirmed.read⟩,
  ⟨"Etsi.DmrData", _, Etsi.DmrData.read⟩,
  ⟨"Etsi.DmrDataHeader.DataHeaderShortRaw", _, Etsi.DmrDataHeader.DataHeaderShortRaw.read⟩,
  ⟨"Etsi.DmrDataHeader.DataHeaderProprietary", _, Etsi.DmrDataHeader.DataHeaderProprietary.read⟩,
  ⟨"Etsi.DmrDataHeader.DataHeaderShortStatusPrecoded", _, Etsi.DmrDataHeader.DataHeaderShortStatusPrecoded.read⟩,
  ⟨"Etsi.DmrDataHeader.DataHeaderResponse", _, Etsi.DmrDataHeader.DataHeaderResponse.read⟩,
  ⟨"Etsi.DmrDataHeader.DataHeaderConfirmed", _, Etsi.DmrDataHeader.DataHeaderConfirmed.read⟩,
  ⟨"Etsi.DmrDataHeader.DataHeaderUnconfirmed", _, Etsi.DmrDataHeader.DataHeaderUnconfirmed.read⟩,
  ⟨"Etsi.DmrDataHeader.DataHeaderShortDefined", _, Etsi.DmrDataHeader.DataHeaderShortDefined.read⟩,
  ⟨"Etsi.DmrDataHeader.DataHeaderUdt", _, Etsi.DmrDataHeader.DataHeaderUdt.read⟩,
  ⟨"Etsi.DmrDataHeader", _, Etsi.DmrDataHeader.read⟩,
  ⟨"Etsi.DmrIpUdp", _, Etsi.DmrIpUdp.read⟩,
  ⟨"Etsi.FullLinkControl.GpsInfoLcPdu", _, Etsi.FullLinkControl.GpsInfoLcPdu.read⟩,
  ⟨"Etsi.FullLinkControl.GroupVoiceChannelUser", _, Etsi.FullLinkControl.GroupVoiceChannelUser.read⟩,
  ⟨"Etsi.FullLinkControl.UnitToUnitVoiceChannelUser", _, Etsi.FullLinkControl.UnitToUnitVoiceChannelUser.read⟩,
  ⟨"Etsi.FullLinkControl.TalkerAliasHeader", _, Etsi.FullLinkControl.TalkerAliasHeader.read⟩,
  ⟨"Etsi.FullLinkControl.TalkerAliasContinuation", _, Etsi.FullLinkControl.TalkerAliasContinuation.read⟩,
  ⟨"Homebrew.Homebrew2015.TypeMasterPing", _, Homebrew.Homebrew2015.TypeMasterPing.read⟩,
  ⟨"Homebrew.Homebrew2015.TypeRepeaterPong", _, Homebrew.Homebrew2015.TypeRepeaterPong.read⟩,
  ⟨"Homebrew.Homebrew2015.TypeRepeaterClosing", _, Homebrew.Homebrew2015.TypeRepeaterClosing.read⟩,
  ⟨"Homebrew.Homebrew2015.TypeRepeaterLoginResponse", _, Homebrew.Homebrew2015.TypeRepeaterLoginResponse.read⟩,
  ⟨"Homebrew.Homebrew2015.TypeRepeaterLoginRequest", _, Homebrew.Homebrew2015.TypeRepeaterLoginRequest.read⟩,
  ⟨"Homebrew.Homebrew2015.TypeMasterNotAccept", _, Homebrew.Homebrew2015.TypeMasterNotAccept.read⟩,
  ⟨"Homebrew.Homebrew2015.TypeMasterClosing", _, Homebrew.Homebrew2015.TypeMasterClosing.read⟩,
  ⟨"Homebrew.Mmdvm2020.TypeMasterPong", _, Homebrew.Mmdvm2020.TypeMasterPong.read⟩,
  ⟨"Homebrew.Mmdvm2020.TypeRadioPosition", _, Homebrew.Mmdvm2020.TypeRadioPosition.read⟩,
  ⟨"Homebrew.Mmdvm2020.TypeTalkerAlias", _, Homebrew.Mmdvm2020.TypeTalkerAlias.read⟩,
  ⟨"Homebrew.Mmdvm2020.TypeRepeaterClosing", _, Homebrew.Mmdvm2020.TypeRepeaterClosing.read⟩,
  ⟨"Homebrew.Mmdvm2020.TypeRepeaterLoginResponse", _, Homebrew.Mmdvm2020.TypeRepeaterLoginResponse.read⟩,
  ⟨"Homebrew.Mmdvm2020.TypeRepeaterLoginRequest", _, Homebrew.Mmdvm2020.TypeRepeaterLoginRequest.read⟩,
  ⟨"Homebrew.Mmdvm2020.TypeMasterNotAccept", _, Homebrew.Mmdvm2020.TypeMasterNotAccept.read⟩,
  ⟨"Homebrew.Mmdvm2020.TypeMasterRepeaterAck", _, Homebrew.Mmdvm2020.TypeMasterRepeaterAck.read⟩,
  ⟨"Homebrew.Mmdvm2020.TypeMasterClosing", _, Homebrew.Mmdvm2020.TypeMasterClosing.read⟩,
  ⟨"Homebrew.Mmdvm2020.TypeRepeaterBeacon", _, Homebrew.Mmdvm2020.TypeRepeaterBeacon.read⟩,
  ⟨"Homebrew.Mmdvm2020.TypeRepeaterPing", _, Homebrew.Mmdvm2020.TypeRepeaterPing.read⟩,
  ⟨"Hytera.RadioIp", _, Hytera.RadioIp.read⟩,
  ⟨"Hytera.DataDeliveryStates", _, Hytera.DataDeliveryStates.read⟩,
  ⟨"Hytera.DataTransmitProtocol.LastDataSlice", _, Hytera.DataTransmitProtocol.LastDataSlice.read⟩,
  ⟨"Hytera.DataTransmitProtocol.DataSliceAnswer", _, Hytera.DataTransmitProtocol.DataSliceAnswer.read⟩,
  ⟨"Hytera.DataTransmitProtocol.LastDataSliceAnswer", _, Hytera.DataTransmitProtocol.LastDataSliceAnswer.read⟩,
  ⟨"Hytera.DataTransmitProtocol.DtpAnswer", _, Hytera.DataTransmitProtocol.DtpAnswer.read⟩,
  ⟨"Hytera.DataTransmitProtocol", _, Hytera.DataTransmitProtocol.read⟩,
  ⟨"Hytera.Datetimestring", _, Hytera.Datetimestring.read⟩,
  ⟨"Hytera.Gpsdata", _, Hytera.Gpsdata.read⟩,
  ⟨"Hytera.HyteraSimpleTransportReliabilityProtocol.Option", _, Hytera.HyteraSimpleTransportReliabilityProtocol.Option.read⟩,
  ⟨"Hytera.Intervalstring", _, Hytera.Intervalstring.read⟩,
  ⟨"Hytera.IpSiteConnectHeartbeat.Keepalive", _, Hytera.IpSiteConnectHeartbeat.Keepalive.read⟩,
  ⟨"Hytera.IpSiteConnectHeartbeat.PingPong", _, Hytera.IpSiteConnectHeartbeat.PingPong.read⟩,
  ⟨"Hytera.LocationProtocol.TriggeredReportStopAnswer", _, Hytera.LocationProtocol.TriggeredReportStopAnswer.read⟩,
  ⟨"Hytera.LocationProtocol.ConditionReportRequest", _, Hytera.LocationProtocol.ConditionReportRequest.read⟩,
  ⟨"Hytera.LocationProtocol.QuickGpsPayload", _, Hytera.LocationProtocol.QuickGpsPayload.read⟩,
  ⟨"Hytera.LocationProtocol.ConditionQuickGpsRequest", _, Hytera.LocationProtocol.ConditionQuickGpsRequest.read⟩,
  ⟨"Hytera.LocationProtocol.ConditionReport", _, Hytera.LocationProtocol.ConditionReport.read⟩,
  ⟨"Hytera.LocationProtocol.EmergencyReport", _, Hytera.LocationProtocol.EmergencyReport.read⟩,
  ⟨"Hytera.LocationProtocol.TriggeredReportAnswer", _, Hytera.LocationProtocol.TriggeredReportAnswer.read⟩,
  ⟨"Hytera.LocationProtocol.StandardAnswerWithRssi", _, Hytera.LocationProtocol.StandardAnswerWithRssi.read⟩,
  ⟨"Hytera.LocationProtocol.StandardRequest", _, Hytera.LocationProtocol.StandardRequest.read⟩,
  ⟨"Hytera.LocationProtocol.TriggeredReportRequest", _, Hytera.LocationProtocol.TriggeredReportRequest.read⟩,
  ⟨"Hytera.LocationProtocol.StandardAnswer", _, Hytera.LocationProtocol.StandardAnswer.read⟩,
  ⟨"Hytera.LocationProtocol.ConditionReportAnswer", _, Hytera.LocationProtocol.ConditionReportAnswer.read⟩,
  ⟨"Hytera.LocationProtocol.EmergencyReportStopRequest", _, Hytera.LocationProtocol.EmergencyReportStopRequest.read⟩,
  ⟨"Hytera.LocationProtocol.ConditionQuickGpsAnswer", _, Hytera.LocationProtocol.ConditionQuickGpsAnswer.read⟩,
  ⟨"Hytera.LocationProtocol.TriggeredReport", _, Hytera.LocationProtocol.TriggeredReport.read⟩,
  ⟨"Hytera.LocationProtocol.ConditionReportWithRssi", _, Hytera.LocationProtocol.ConditionReportWithRssi.read⟩,
  ⟨"Hytera.LocationProtocol.EmergencyReportStopAnswer", _, Hytera.LocationProtocol.EmergencyReportStopAnswer.read⟩,
  ⟨"Hytera.LocationProtocol.TriggeredReportStopRequest", _, Hytera.LocationProtocol.TriggeredReportStopRequest.read⟩,
  ⟨"Hytera.LocationProtocol", _, Hytera.LocationProtocol.read⟩,
  ⟨"Hytera.RadioControlProtocol.BroadcastStatusConfigurationReply", _, Hytera.RadioControlProtocol.BroadcastStatusConfigurationReply.read⟩,
  ⟨"Hytera.RadioControlProtocol.BroadcastConfiguration", _, Hytera.RadioControlProtocol.BroadcastConfiguration.read⟩,
  ⟨"Hytera.RadioControlProtocol.BroadcastStatusConfigurationRequest", _, Hytera.RadioControlProtocol.BroadcastStatusConfigurationRequest.read⟩,
  ⟨"Hytera.RadioControlProtocol.CallRequest", _, Hytera.RadioControlProtocol.CallRequest.read⟩,
  ⟨"Hytera.RadioControlProtocol.RemoveRadioReply", _, Hytera.RadioControlProtocol.RemoveRadioReply.read⟩,
  ⟨"Hytera.RadioControlProtocol.RemoveRadioRequest", _, Hytera.RadioControlProtocol.RemoveRadioRequest.read⟩,
  ⟨"Hytera.RadioControlProtocol.CallReply", _, Hytera.RadioControlProtocol.CallReply.read⟩,
  ⟨"Hytera.RadioControlProtocol", _, Hytera.RadioControlProtocol.read⟩,
  ⟨"Hytera.RadioId", _, Hytera.RadioId.read⟩,
  ⟨"Hytera.RadioRegistrationService", _, Hytera.RadioRegistrationService.read⟩,
  ⟨"Hytera.RealTimeTransportProtocol.FixedHeader", _, Hytera.RealTimeTransportProtocol.FixedHeader.read⟩,
  ⟨"Hytera.RealTimeTransportProtocol.HeaderExtension", _, Hytera.RealTimeTransportProtocol.HeaderExtension.read⟩,
  ⟨"Hytera.TelemetryProtocol.StandardStatusReport", _, Hytera.TelemetryProtocol.StandardStatusReport.read⟩,
  ⟨"Hytera.TelemetryProtocol.VioExtendedStatus", _, Hytera.TelemetryProtocol.VioExtendedStatus.read⟩,
  ⟨"Hytera.TelemetryProtocol.RemoteControlAnswer", _, Hytera.TelemetryProtocol.RemoteControlAnswer.read⟩,
  ⟨"Hytera.TelemetryProtocol.RemoteControlRequest", _, Hytera.TelemetryProtocol.RemoteControlRequest.read⟩,
  ⟨"Hytera.TelemetryProtocol.ExtendedStatusReport", _, Hytera.TelemetryProtocol.ExtendedStatusReport.read⟩,
  ⟨"Hytera.TelemetryProtocol.StandardStatusRequest", _, Hytera.TelemetryProtocol.StandardStatusRequest.read⟩,
  ⟨"Hytera.TextMessageProtocol", _, Hytera.TextMessageProtocol.read⟩,
  ⟨"Motorola.AutomaticRegistrationService.MessageHeaderBits", _, Motorola.AutomaticRegistrationService.MessageHeaderBits.read⟩,
  ⟨"Motorola.AutomaticRegistrationService.DeviceRegistrationAcknowledgementHeader", _, Motorola.AutomaticRegistrationService.DeviceRegistrationAcknowledgementHeader.read⟩,
  ⟨"Motorola.AutomaticRegistrationService.DeviceRegistrationAcknowledgementFailureReason", _, Motorola.AutomaticRegistrationService.DeviceRegistrationAcknowledgementFailureReason.read⟩,
  ⟨"Motorola.AutomaticRegistrationService.DeviceRegistrationMessageHeader", _, Motorola.AutomaticRegistrationService.DeviceRegistrationMessageHeader.read⟩,
  ⟨"Motorola.AutomaticRegistrationService.DeviceDeregistrationMessage", _, Motorola.AutomaticRegistrationService.DeviceDeregistrationMessage.read⟩,
  ⟨"Motorola.AutomaticRegistrationService.ArsQueryMessage", _, Motorola.AutomaticRegistrationService.ArsQueryMessage.read⟩,
  ⟨"Motorola.MotorolaBinaryXml.OpaqueElementValue", _, Motorola.MotorolaBinaryXml.OpaqueElementValue.read⟩,
  ⟨"Motorola.MotorolaBinaryXml.Opaque1byteValue", _, Motorola.MotorolaBinaryXml.Opaque1byteValue.read⟩,
  ⟨"Motorola.MotorolaBinaryXml.Opaque3byteValue", _, Motorola.MotorolaBinaryXml.Opaque3byteValue.read⟩,
  ⟨"Motorola.MotorolaBinaryXml.Opaque5byteValue", _, Motorola.MotorolaBinaryXml.Opaque5byteValue.read⟩,
  ⟨"Motorola.MotorolaBinaryXml.Opaque2byteValue", _, Motorola.MotorolaBinaryXml.Opaque2byteValue.read⟩,
  ⟨"Motorola.MotorolaBinaryXml.Opaque4byteValue", _, Motorola.MotorolaBinaryXml.Opaque4byteValue.read⟩,
  ⟨"Motorola.TextMessageProtocol.MessageHeaderBits", _, Motorola.TextMessageProtocol.MessageHeaderBits.read⟩,
  ⟨"Motorola.TextMessageProtocol.TextMessageHeaderSequenceAndEncoding", _, Motorola.TextMessageProtocol.TextMessageHeaderSequenceAndEncoding.read⟩,
  ⟨"Motorola.TextMessageProtocol.TmsServiceAvailabilityHeader", _, Motorola.TextMessageProtocol.TmsServiceAvailabilityHeader.read⟩,
  ⟨"Motorola.TextMessageProtocol.TmsAcknowledgementHeaderSequenceNumber", _, Motorola.TextMessageProtocol.TmsAcknowledgementHeaderSequenceNumber.read⟩,
  ⟨"Motorola.TextMessageProtocol.TmsServiceAvailabilityAcknowledgement", _, Motorola.TextMessageProtocol.TmsServiceAvailabilityAcknowledgement.read⟩]

theorem sequentialDecoders_local {G : Bytes → Bytes → Prop} : ∀ d ∈ sequentialDecoders, Local G d.read := by
  unfold sequentialDecoders
  refine List.forall_mem_cons.mpr ⟨Etsi.DmrCsbk.NegativeAckResponseData.read_local, ?_⟩
  refine List.forall_mem_cons.mpr ⟨Etsi.DmrCsbk.ServiceOptions.read_local, ?_⟩
  refine List.forall_mem_cons.mpr ⟨Etsi.DmrCsbk.UnitToUnitVoiceRequestData.read_local, ?_⟩
  refine List.forall_mem_cons.mpr ⟨Etsi.DmrCsbk.PreambleData.read_local, ?_⟩
  refine List.forall_mem_cons.mpr ⟨Etsi.DmrCsbk.ChannelTimingData.read_local, ?_⟩
  refine List.forall_mem_cons.mpr ⟨Etsi.DmrCsbk.BsOutboundActivationData.read_local, ?_⟩
  refine List.forall_mem_cons.mpr ⟨Etsi.DmrCsbk.UnitToUnitVoiceAnswerData.read_local, ?_⟩
  refine List.forall_mem_cons.mpr ⟨Etsi.DmrCsbk.read_local, ?_⟩
  refine List.forall_mem_cons.mpr ⟨Etsi.DmrData.Rate1LastBlockUnconfirmed.read_local, ?_⟩
  refine List.forall_mem_cons.mpr ⟨Etsi.DmrData.Rate12LastBlockConfirmed.read_local, ?_⟩
  refine List.forall_mem_cons.mpr ⟨Etsi.DmrData.Rate12Confirmed.read_local, ?_⟩
  refine List.forall_mem_cons.mpr ⟨Etsi.DmrData.Rate34LastBlockUnconfirmed.read_local, ?_⟩
  refine List.forall_mem_cons.mpr ⟨Etsi.DmrData.Rate1LastBlockConfirmed.read_local, ?_⟩
  refine List.forall_mem_cons.mpr ⟨Etsi.DmrData.Rate1Unconfirmed.read_local, ?_⟩
  refine List.forall_mem_cons.mpr ⟨Etsi.DmrData.UdtLastBlock.read_local, ?_⟩
  refine List.forall_mem_cons.mpr ⟨Etsi.DmrData.Rate34Confirmed.read_local, ?_⟩
  refine List.forall_mem_cons.mpr ⟨Etsi.DmrData.Rate34LastBlockConfirmed.read_local, ?_⟩
  refine List.forall_mem_cons.mpr ⟨Etsi.DmrData.Rate34Unconfirmed.read_local, ?_⟩
  refine List.forall_mem_cons.mpr ⟨Etsi.DmrData.Rate12LastBlockUnconfirmed.read_local, ?_⟩
  refine List.forall_mem_cons.mpr ⟨Etsi.DmrData.Rate1Confirmed.read_local, ?_⟩
  refine List.forall_mem_cons.mpr ⟨Etsi.DmrData.Rate12Unconfirmed.read_local, ?_⟩
  refine List.forall_mem_cons.mpr ⟨Etsi.DmrData.read_local, ?_⟩
  refine List.forall_mem_cons.mpr ⟨Etsi.DmrDataHeader.DataHeaderShortRaw.read_local, ?_⟩
  refine List.forall_mem_cons.mpr ⟨Etsi.DmrDataHeader.DataHeaderProprietary.read_local, ?_⟩
  refine List.forall_mem_cons.mpr ⟨Etsi.DmrDataHeader.DataHeaderShortStatusPrecoded.read_local, ?_⟩
  refine List.forall_mem_cons.mpr ⟨Etsi.DmrDataHeader.DataHeaderResponse.read_local, ?_⟩
  refine List.forall_mem_cons.mpr ⟨Etsi.DmrDataHeader.DataHeaderConfirmed.read_local, ?_⟩
  refine List.forall_mem_cons.mpr ⟨Etsi.DmrDataHeader.DataHeaderUnconfirmed.read_local, ?_⟩
  refine List.forall_mem_cons.mpr ⟨Etsi.DmrDataHeader.DataHeaderShortDefined.read_local, ?_⟩
  refine List.forall_mem_cons.mpr ⟨Etsi.DmrDataHeader.DataHeaderUdt.read_local, ?_⟩
  refine List.forall_mem_cons.mpr ⟨Etsi.DmrDataHeader.read_local, ?_⟩
  refine List.forall_mem_cons.mpr ⟨Etsi.DmrIpUdp.read_local, ?_⟩
  refine List.forall_mem_cons.mpr ⟨Etsi.FullLinkControl.GpsInfoLcPdu.read_local, ?_⟩
  refine List.forall_mem_cons.mpr ⟨Etsi.FullLinkControl.GroupVoiceChannelUser.read_local, ?_⟩
  refine List.forall_mem_cons.mpr ⟨Etsi.FullLinkControl.UnitToUnitVoiceChannelUser.read_local, ?_⟩
  refine List.forall_mem_cons.mpr ⟨Etsi.FullLinkControl.TalkerAliasHeader.read_local, ?_⟩
  refine List.forall_mem_cons.mpr ⟨Etsi.FullLinkControl.TalkerAliasContinuation.read_local, ?_⟩
  refine List.forall_mem_cons.mpr ⟨Homebrew.Homebrew2015.TypeMasterPing.read_local, ?_⟩
  refine List.forall_mem_cons.mpr ⟨Homebrew.Homebrew2015.TypeRepeaterPong.read_local, ?_⟩
  refine List.forall_mem_cons.mpr ⟨Homebrew.Homebrew2015.TypeRepeaterClosing.read_local, ?_⟩
  refine List.forall_mem_cons.mpr ⟨Homebrew.Homebrew2015.TypeRepeaterLoginResponse.read_local, ?_⟩
  refine List.forall_mem_cons.mpr ⟨Homebrew.Homebrew2015.TypeRepeaterLoginRequest.read_local, ?_⟩
  refine List.forall_mem_cons.mpr ⟨Homebrew.Homebrew2015.TypeMasterNotAccept.read_local, ?_⟩
  refine List.forall_mem_cons.mpr ⟨Homebrew.Homebrew2015.TypeMasterClosing.read_local, ?_⟩
  refine List.forall_mem_cons.mpr ⟨Homebrew.Mmdvm2020.TypeMasterPong.read_local, ?_⟩
  refine List.forall_mem_cons.mpr ⟨Homebrew.Mmdvm2020.TypeRadioPosition.read_local, ?_⟩
  refine List.forall_mem_cons.mpr ⟨Homebrew.Mmdvm2020.TypeTalkerAlias.read_local, ?_⟩
  refine List.forall_mem_cons.mpr ⟨Homebrew.Mmdvm2020.TypeRepeaterClosing.read_local, ?_⟩
  refine List.forall_mem_cons.mpr ⟨Homebrew.Mmdvm2020.TypeRepeaterLoginResponse.read_local, ?_⟩
  refine List.forall_mem_cons.mpr ⟨Homebrew.Mmdvm2020.TypeRepeaterLoginRequest.read_local, ?_⟩
  refine List.forall_mem_cons.mpr ⟨Homebrew.Mmdvm2020.TypeMasterNotAccept.read_local, ?_⟩
  refine List.forall_mem_cons.mpr ⟨Homebrew.Mmdvm2020.TypeMasterRepeaterAck.read_local, ?_⟩
  refine List.forall_mem_cons.mpr ⟨Homebrew.Mmdvm2020.TypeMasterClosing.read_local, ?_⟩
  refine List.forall_mem_cons.mpr ⟨Homebrew.Mmdvm2020.TypeRepeaterBeacon.read_local, ?_⟩
  refine List.forall_mem_cons.mpr ⟨Homebrew.Mmdvm2020.TypeRepeaterPing.read_local, ?_⟩
  refine List.forall_mem_cons.mpr ⟨Hytera.RadioIp.read_local, ?_⟩
  refine List.forall_mem_cons.mpr ⟨Hytera.DataDeliveryStates.read_local, ?_⟩
  refine List.forall_mem_cons.mpr ⟨Hytera.DataTransmitProtocol.LastDataSlice.read_local, ?_⟩
  refine List.forall_mem_cons.mpr ⟨Hytera.DataTransmitProtocol.DataSliceAnswer.read_local, ?_⟩
  refine List.forall_mem_cons.mpr ⟨Hytera.DataTransmitProtocol.LastDataSliceAnswer.read_local, ?_⟩
  refine List.forall_mem_cons.mpr ⟨Hytera.DataTransmitProtocol.DtpAnswer.read_local, ?_⟩
  refine List.forall_mem_cons.mpr ⟨Hytera.DataTransmitProtocol.read_local, ?_⟩
  refine List.forall_mem_cons.mpr ⟨Hytera.Datetimestring.read_local, ?_⟩
  refine List.forall_mem_cons.mpr ⟨Hytera.Gpsdata.read_local, ?_⟩
  refine List.forall_mem_cons.mpr ⟨Hytera.HyteraSimpleTransportReliabilityProtocol.Option.read_local, ?_⟩
  refine List.forall_mem_cons.mpr ⟨Hytera.Intervalstring.read_local, ?_⟩
  refine List.forall_mem_cons.mpr ⟨Hytera.IpSiteConnectHeartbeat.Keepalive.read_local, ?_⟩
  refine List.forall_mem_cons.mpr ⟨Hytera.IpSiteConnectHeartbeat.PingPong.read_local, ?_⟩
  refine List.forall_mem_cons.mpr ⟨Hytera.LocationProtocol.TriggeredReportStopAnswer.read_local, ?_⟩
  refine List.forall_mem_cons.mpr ⟨Hytera.LocationProtocol.ConditionReportRequest.read_local, ?_⟩
  refine List.forall_mem_cons.mpr ⟨Hytera.LocationProtocol.QuickGpsPayload.read_local, ?_⟩
  refine List.forall_mem_cons.mpr ⟨Hytera.LocationProtocol.ConditionQuickGpsRequest.read_local, ?_⟩
  refine List.forall_mem_cons.mpr ⟨Hytera.LocationProtocol.ConditionReport.read_local, ?_⟩
  refine List.forall_mem_cons.mpr ⟨Hytera.LocationProtocol.EmergencyReport.read_local, ?_⟩
  refine List.forall_mem_cons.mpr ⟨Hytera.LocationProtocol.TriggeredReportAnswer.read_local, ?_⟩
  refine List.forall_mem_cons.mpr ⟨Hytera.LocationProtocol.StandardAnswerWithRssi.read_local, ?_⟩
  refine List.forall_mem_cons.mpr ⟨Hytera.LocationProtocol.StandardRequest.read_local, ?_⟩
  refine List.forall_mem_cons.mpr ⟨Hytera.LocationProtocol.TriggeredReportRequest.read_local, ?_⟩
  refine List.forall_mem_cons.mpr ⟨Hytera.LocationProtocol.StandardAnswer.read_local, ?_⟩
  refine List.forall_mem_cons.mpr ⟨Hytera.LocationProtocol.ConditionReportAnswer.read_local, ?_⟩
  refine List.forall_mem_cons.mpr ⟨Hytera.LocationProtocol.EmergencyReportStopRequest.read_local, ?_⟩
  refine List.forall_mem_cons.mpr ⟨Hytera.LocationProtocol.ConditionQuickGpsAnswer.read_local, ?_⟩
  refine List.forall_mem_cons.mpr ⟨Hytera.LocationProtocol.TriggeredReport.read_local, ?_⟩
  refine List.forall_mem_cons.mpr ⟨Hytera.LocationProtocol.ConditionReportWithRssi.read_local, ?_⟩
  refine List.forall_mem_cons.mpr ⟨Hytera.LocationProtocol.EmergencyReportStopAnswer.read_local, ?_⟩
  refine List.forall_mem_cons.mpr ⟨Hytera.LocationProtocol.TriggeredReportStopRequest.read_local, ?_⟩
  refine List.forall_mem_cons.mpr ⟨Hytera.LocationProtocol.read_local, ?_⟩
  refine List.forall_mem_cons.mpr ⟨Hytera.RadioControlProtocol.BroadcastStatusConfigurationReply.read_local, ?_⟩
  refine List.forall_mem_cons.mpr ⟨Hytera.RadioControlProtocol.BroadcastConfiguration.read_local, ?_⟩
  refine List.forall_mem_cons.mpr ⟨Hytera.RadioControlProtocol.BroadcastStatusConfigurationRequest.read_local, ?_⟩
  refine List.forall_mem_cons.mpr ⟨Hytera.RadioControlProtocol.CallRequest.read_local, ?_⟩
  refine List.forall_mem_cons.mpr ⟨Hytera.RadioControlProtocol.RemoveRadioReply.read_local, ?_⟩
  refine List.forall_mem_cons.mpr ⟨Hytera.RadioControlProtocol.RemoveRadioRequest.read_local, ?_⟩
  refine List.forall_mem_cons.mpr ⟨Hytera.RadioControlProtocol.CallReply.read_local, ?_⟩
  refine List.forall_mem_cons.mpr ⟨Hytera.RadioControlProtocol.read_local, ?_⟩
  refine List.forall_mem_cons.mpr ⟨Hytera.RadioId.read_local, ?_⟩
  refine List.forall_mem_cons.mpr ⟨Hytera.RadioRegistrationService.read_local, ?_⟩
  refine List.forall_mem_cons.mpr ⟨Hytera.RealTimeTransportProtocol.FixedHeader.read_local, ?_⟩
  refine List.forall_mem_cons.mpr ⟨Hytera.RealTimeTransportProtocol.HeaderExtension.read_local, ?_⟩
  refine List.forall_mem_cons.mpr ⟨Hytera.TelemetryProtocol.StandardStatusReport.read_local, ?_⟩
  refine List.forall_mem_cons.mpr ⟨Hytera.TelemetryProtocol.VioExtendedStatus.read_local, ?_⟩
  refine List.forall_mem_cons.mpr ⟨Hytera.TelemetryProtocol.RemoteControlAnswer.read_local, ?_⟩
  refine List.forall_mem_cons.mpr ⟨Hytera.TelemetryProtocol.RemoteControlRequest.read_local, ?_⟩
  refine List.forall_mem_cons.mpr ⟨Hytera.TelemetryProtocol.ExtendedStatusReport.read_local, ?_⟩
  refine List.forall_mem_cons.mpr ⟨Hytera.TelemetryProtocol.StandardStatusRequest.read_local, ?_⟩
  refine List.forall_mem_cons.mpr ⟨Hytera.TextMessageProtocol.read_local, ?_⟩
  refine List.forall_mem_cons.mpr ⟨Motorola.AutomaticRegistrationService.MessageHeaderBits.read_local, ?_⟩
  refine List.forall_mem_cons.mpr ⟨Motorola.AutomaticRegistrationService.DeviceRegistrationAcknowledgementHeader.read_local, ?_⟩
  refine List.forall_mem_cons.mpr ⟨Motorola.AutomaticRegistrationService.DeviceRegistrationAcknowledgementFailureReason.read_local, ?_⟩
  refine List.forall_mem_cons.mpr ⟨Motorola.AutomaticRegistrationService.DeviceRegistrationMessageHeader.read_local, ?_⟩
  refine List.forall_mem_cons.mpr ⟨Motorola.AutomaticRegistrationService.DeviceDeregistrationMessage.read_local, ?_⟩
  refine List.forall_mem_cons.mpr ⟨Motorola.AutomaticRegistrationService.ArsQueryMessage.read_local, ?_⟩
  refine List.forall_mem_cons.mpr ⟨Motorola.MotorolaBinaryXml.OpaqueElementValue.read_local, ?_⟩
  refine List.forall_mem_cons.mpr ⟨Motorola.MotorolaBinaryXml.Opaque1byteValue.read_local, ?_⟩
  refine List.forall_mem_cons.mpr ⟨Motorola.MotorolaBinaryXml.Opaque3byteValue.read_local, ?_⟩
  refine List.forall_mem_cons.mpr ⟨Motorola.MotorolaBinaryXml.Opaque5byteValue.read_local, ?_⟩
  refine List.forall_mem_cons.mpr ⟨Motorola.MotorolaBinaryXml.Opaque2byteValue.read_local, ?_⟩
  refine List.forall_mem_cons.mpr ⟨Motorola.MotorolaBinaryXml.Opaque4byteValue.read_local, ?_⟩
  refine List.forall_mem_cons.mpr ⟨Motorola.TextMessageProtocol.MessageHeaderBits.read_local, ?_⟩
  refine List.forall_mem_cons.mpr ⟨Motorola.TextMessageProtocol.TextMessageHeaderSequenceAndEncoding.read_local, ?_⟩
  refine List.forall_mem_cons.mpr ⟨Motorola.TextMessageProtocol.TmsServiceAvailabilityHeader.read_local, ?_⟩
  refine List.forall_mem_cons.mpr ⟨Motorola.TextMessageProtocol.TmsAcknowledgementHeaderSequenceNumber.read_local, ?_⟩
  refine List.forall_mem_cons.mpr ⟨Motorola.TextMessageProtocol.TmsServiceAvailabilityAcknowledgement.read_local, ?_⟩
  exact List.forall_mem_nil _

end Dmr
