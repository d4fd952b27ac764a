import Verif.Py.TimeCalls
/-
What the classes and the properties of the library take. The numbers are found by tools/mktime.py, and checked here.
-/

set_option autoImplicit false

namespace Dmr.Py.Time

/-- What `_read` of each class takes. -/
def readCosts : List (String × Cost) :=
  [("Hytera.DataDeliveryStates", ⟨77, 0, 8⟩),
   ("Hytera.DataTransmitProtocol.LastDataSlice", ⟨90, 0, 8⟩),
   ("Hytera.DataTransmitProtocol.DtpRequest", ⟨107, 0, 9⟩),
   ("Hytera.DataTransmitProtocol.DataSliceAnswer", ⟨103, 0, 10⟩),
   ("Hytera.DataTransmitProtocol.DataSliceTransmit", ⟨105, 0, 9⟩),
   ("Hytera.DataTransmitProtocol.LastDataSliceAnswer", ⟨98, 0, 9⟩),
   ("Hytera.DataTransmitProtocol.DtpAnswer", ⟨98, 0, 9⟩),
   ("Hytera.DataTransmitProtocol", ⟨170, 0, 3⟩),
   ("Hytera.Datetimestring", ⟨8, 0, 0⟩),
   ("Hytera.Gpsdata", ⟨54, 0, 0⟩),
   ("Hytera.HyteraDmrApplicationProtocol.UndefinedProtocol", ⟨5, 0, 0⟩),
   ("Hytera.HyteraDmrApplicationProtocol", ⟨393, 38, 1⟩),
   ("Hytera.HyteraRadioNetworkProtocol", ⟨519, 38, 8⟩),
   ("Hytera.HyteraSimpleTransportReliabilityProtocol.Option", ⟨33, 0, 1⟩),
   ("Hytera.HyteraSimpleTransportReliabilityProtocol", ⟨637, 464, 2⟩),
   ("Hytera.Intervalstring", ⟨8, 0, 0⟩),
   ("Hytera.IpSiteConnectHeartbeat.Keepalive", ⟨19, 0, 0⟩),
   ("Hytera.IpSiteConnectHeartbeat.PingPong", ⟨81, 0, 1⟩),
   ("Hytera.IpSiteConnectHeartbeat.Unknown", ⟨5, 0, 0⟩),
   ("Hytera.IpSiteConnectHeartbeat", ⟨121, 0, 0⟩),
   ("Hytera.IpSiteConnectProtocol", ⟨130, 0, 10⟩),
   ("Hytera.LocationProtocol.TriggeredReportStopAnswer", ⟨58, 0, 6⟩),
   ("Hytera.LocationProtocol.ConditionReportRequest", ⟨192, 0, 7⟩),
   ("Hytera.LocationProtocol.ConditionQuickGpsRequest", ⟨205, 0, 6⟩),
   ("Hytera.LocationProtocol.ConditionReport", ⟨129, 0, 5⟩),
   ("Hytera.LocationProtocol.EmergencyReport", ⟨129, 0, 5⟩),
   ("Hytera.LocationProtocol.TriggeredReportAnswer", ⟨58, 0, 6⟩),
   ("Hytera.LocationProtocol.StandardAnswerWithRssi", ⟨142, 0, 7⟩),
   ("Hytera.LocationProtocol.QuickGpsPayload", ⟨114, 0, 3⟩),
   ("Hytera.LocationProtocol.StandardRequest", ⟨50, 0, 5⟩),
   ("Hytera.LocationProtocol.TriggeredReportRequest", ⟨149, 0, 5⟩),
   ("Hytera.LocationProtocol.StandardAnswer", ⟨137, 0, 6⟩),
   ("Hytera.LocationProtocol.ConditionReportAnswer", ⟨66, 0, 7⟩),
   ("Hytera.LocationProtocol.EmergencyReportStopRequest", ⟨50, 0, 5⟩),
   ("Hytera.LocationProtocol.ConditionQuickGpsAnswer", ⟨66, 0, 7⟩),
   ("Hytera.LocationProtocol.TriggeredReport", ⟨162, 0, 5⟩),
   ("Hytera.LocationProtocol.ConditionReportWithRssi", ⟨142, 0, 7⟩),
   ("Hytera.LocationProtocol.EmergencyReportStopAnswer", ⟨58, 0, 6⟩),
   ("Hytera.LocationProtocol.TriggeredReportStopRequest", ⟨50, 0, 5⟩),
   ("Hytera.LocationProtocol", ⟨296, 0, 2⟩),
   ("Hytera.RadioControlProtocol.BroadcastStatusConfigurationReply", ⟨8, 0, 1⟩),
   ("Hytera.RadioControlProtocol.BroadcastConfiguration", ⟨10, 0, 2⟩),
   ("Hytera.RadioControlProtocol.BroadcastStatusConfigurationRequest", ⟨50, 38, 1⟩),
   ("Hytera.RadioControlProtocol.RadioIdentificationReply", ⟨38, 0, 0⟩),
   ("Hytera.RadioControlProtocol.GenericData", ⟨8, 0, 0⟩),
   ("Hytera.RadioControlProtocol.CallRequest", ⟨13, 0, 2⟩),
   ("Hytera.RadioControlProtocol.RemoveRadioReply", ⟨8, 0, 1⟩),
   ("Hytera.RadioControlProtocol.RemoveRadioRequest", ⟨1, 0, 0⟩),
   ("Hytera.RadioControlProtocol.CallReply", ⟨8, 0, 1⟩),
   ("Hytera.RadioControlProtocol", ⟨106, 38, 2⟩),
   ("Hytera.RadioId", ⟨5, 0, 1⟩),
   ("Hytera.RadioIp", ⟨20, 0, 4⟩),
   ("Hytera.RadioRegistrationService", ⟨170, 0, 6⟩),
   ("Hytera.RealTimeTransportProtocol.FixedHeader", ⟨86, 5, 3⟩),
   ("Hytera.RealTimeTransportProtocol.HeaderExtension", ⟨102, 0, 5⟩),
   ("Hytera.RealTimeTransportProtocol", ⟨392, 5, 3⟩),
   ("Hytera.TelemetryProtocol.StandardStatusReport", ⟨120, 0, 11⟩),
   ("Hytera.TelemetryProtocol.VioExtendedStatus", ⟨22, 0, 2⟩),
   ("Hytera.TelemetryProtocol.RemoteControlAnswer", ⟨120, 0, 11⟩),
   ("Hytera.TelemetryProtocol.RemoteControlRequest", ⟨120, 0, 11⟩),
   ("Hytera.TelemetryProtocol.ExtendedStatusReport", ⟨162, 0, 12⟩),
   ("Hytera.TelemetryProtocol.StandardStatusRequest", ⟨112, 0, 10⟩),
   ("Hytera.TelemetryProtocol", ⟨257, 0, 3⟩),
   ("Hytera.TextMessageProtocol", ⟨237, 0, 7⟩),
   ("Etsi.DmrCsbk.NegativeAckResponseData", ⟨40, 0, 0⟩),
   ("Etsi.DmrCsbk.UnitToUnitVoiceRequestData", ⟨90, 0, 0⟩),
   ("Etsi.DmrCsbk.ServiceOptions", ⟨44, 0, 0⟩),
   ("Etsi.DmrCsbk.PreambleData", ⟨42, 0, 0⟩),
   ("Etsi.DmrCsbk.ChannelTimingData", ⟨68, 0, 0⟩),
   ("Etsi.DmrCsbk.BsOutboundActivationData", ⟨18, 0, 0⟩),
   ("Etsi.DmrCsbk.UnitToUnitVoiceAnswerData", ⟨93, 0, 0⟩),
   ("Etsi.DmrCsbk", ⟨172, 0, 0⟩),
   ("Etsi.DmrData.Rate1LastBlockUnconfirmed", ⟨12, 0, 0⟩),
   ("Etsi.DmrData.Rate12LastBlockConfirmed", ⟨28, 0, 0⟩),
   ("Etsi.DmrData.Rate12Confirmed", ⟨22, 0, 0⟩),
   ("Etsi.DmrData.Rate34LastBlockUnconfirmed", ⟨12, 0, 0⟩),
   ("Etsi.DmrData.Rate1LastBlockConfirmed", ⟨28, 0, 0⟩),
   ("Etsi.DmrData.Rate1Unconfirmed", ⟨6, 0, 0⟩),
   ("Etsi.DmrData.UdtLastBlock", ⟨12, 0, 0⟩),
   ("Etsi.DmrData.Rate34Confirmed", ⟨22, 0, 0⟩),
   ("Etsi.DmrData.Rate34LastBlockConfirmed", ⟨28, 0, 0⟩),
   ("Etsi.DmrData.Rate34Unconfirmed", ⟨6, 0, 0⟩),
   ("Etsi.DmrData.Rate12LastBlockUnconfirmed", ⟨12, 0, 0⟩),
   ("Etsi.DmrData.Rate1Confirmed", ⟨22, 0, 0⟩),
   ("Etsi.DmrData.Rate12Unconfirmed", ⟨6, 0, 0⟩),
   ("Etsi.DmrData", ⟨1, 0, 0⟩),
   ("Etsi.DmrDataHeader.DataHeaderShortRaw", ⟨102, 0, 0⟩),
   ("Etsi.DmrDataHeader.DataHeaderProprietary", ⟨40, 0, 0⟩),
   ("Etsi.DmrDataHeader.DataHeaderUndefined", ⟨5, 0, 0⟩),
   ("Etsi.DmrDataHeader.DataHeaderShortStatusPrecoded", ⟨86, 0, 0⟩),
   ("Etsi.DmrDataHeader.DataHeaderResponse", ⟨103, 0, 0⟩),
   ("Etsi.DmrDataHeader.DataHeaderConfirmed", ⟨112, 0, 0⟩),
   ("Etsi.DmrDataHeader.DataHeaderUnconfirmed", ⟨104, 0, 0⟩),
   ("Etsi.DmrDataHeader.DataHeaderShortDefined", ⟨99, 0, 0⟩),
   ("Etsi.DmrDataHeader.DataHeaderUdt", ⟨116, 0, 0⟩),
   ("Etsi.DmrDataHeader", ⟨15, 0, 0⟩),
   ("Etsi.DmrIpUdp.UdpIpv4CompressedHeader", ⟨89, 0, 0⟩),
   ("Etsi.DmrIpUdp", ⟨1, 0, 0⟩),
   ("Etsi.FullLinkControl.GpsInfoLcPdu", ⟨27, 0, 0⟩),
   ("Etsi.FullLinkControl.GroupVoiceChannelUser", ⟨18, 0, 0⟩),
   ("Etsi.FullLinkControl.UnitToUnitVoiceChannelUser", ⟨18, 0, 0⟩),
   ("Etsi.FullLinkControl.TalkerAliasHeader", ⟨21, 0, 0⟩),
   ("Etsi.FullLinkControl.TalkerAliasContinuation", ⟨6, 0, 0⟩),
   ("Etsi.FullLinkControl", ⟨152, 0, 0⟩),
   ("Homebrew.Homebrew2015.TypeMasterPing", ⟨24, 0, 1⟩),
   ("Homebrew.Homebrew2015.TypeRepeaterPong", ⟨24, 0, 1⟩),
   ("Homebrew.Homebrew2015.TypeRepeaterConfigurationOrClosing", ⟨186, 0, 1⟩),
   ("Homebrew.Homebrew2015.TypeRepeaterLoginResponse", ⟨11, 0, 1⟩),
   ("Homebrew.Homebrew2015.TypeRepeaterLoginRequest", ⟨5, 0, 1⟩),
   ("Homebrew.Homebrew2015.TypeMasterNotAccept", ⟨24, 0, 1⟩),
   ("Homebrew.Homebrew2015.TypeMasterRepeaterAck", ⟨34, 0, 1⟩),
   ("Homebrew.Homebrew2015.TypeMasterClosing", ⟨24, 0, 1⟩),
   ("Homebrew.Homebrew2015.TypeDmrData", ⟨94, 0, 3⟩),
   ("Homebrew.Homebrew2015.TypeRepeaterOptions", ⟨12, 0, 1⟩),
   ("Homebrew.Homebrew2015.TypeRepeaterClosing", ⟨24, 0, 1⟩),
   ("Homebrew.Homebrew2015.TypeRepeaterConfiguration", ⟨116, 0, 1⟩),
   ("Homebrew.Homebrew2015", ⟨241, 0, 0⟩),
   ("Homebrew.Mmdvm2020.TypeMasterPong", ⟨24, 0, 1⟩),
   ("Homebrew.Mmdvm2020.TypeRadioPosition", ⟨33, 0, 0⟩),
   ("Homebrew.Mmdvm2020.TypeTalkerAlias", ⟨26, 0, 1⟩),
   ("Homebrew.Mmdvm2020.TypeRepeaterConfigurationOrClosing", ⟨194, 0, 1⟩),
   ("Homebrew.Mmdvm2020.TypeRepeaterLoginResponse", ⟨11, 0, 1⟩),
   ("Homebrew.Mmdvm2020.TypeRepeaterLoginRequest", ⟨5, 0, 1⟩),
   ("Homebrew.Mmdvm2020.TypeMasterNotAccept", ⟨24, 0, 1⟩),
   ("Homebrew.Mmdvm2020.TypeUnknown", ⟨5, 0, 0⟩),
   ("Homebrew.Mmdvm2020.TypeMasterRepeaterAck", ⟨24, 0, 1⟩),
   ("Homebrew.Mmdvm2020.TypeMasterClosing", ⟨24, 0, 1⟩),
   ("Homebrew.Mmdvm2020.TypeDmrData", ⟨94, 0, 3⟩),
   ("Homebrew.Mmdvm2020.TypeRepeaterBeacon", ⟨1, 0, 0⟩),
   ("Homebrew.Mmdvm2020.TypeRepeaterOptions", ⟨12, 0, 1⟩),
   ("Homebrew.Mmdvm2020.TypeRepeaterClosing", ⟨24, 0, 1⟩),
   ("Homebrew.Mmdvm2020.TypeRepeaterConfiguration", ⟨124, 0, 1⟩),
   ("Homebrew.Mmdvm2020.TypeRepeaterPing", ⟨24, 0, 1⟩),
   ("Homebrew.Mmdvm2020", ⟨253, 0, 0⟩),
   ("Motorola.AutomaticRegistrationService.AcknowledgementMessage", ⟨108, 0, 0⟩),
   ("Motorola.AutomaticRegistrationService.DeviceRegistrationMessageHeader", ⟨23, 0, 0⟩),
   ("Motorola.AutomaticRegistrationService.MessageHeaderBits", ⟨38, 0, 0⟩),
   ("Motorola.AutomaticRegistrationService.DeviceDeregistrationMessage", ⟨1, 0, 0⟩),
   ("Motorola.AutomaticRegistrationService.DeviceRegistrationAcknowledgementFailureReason", ⟨17, 0, 0⟩),
   ("Motorola.AutomaticRegistrationService.DeviceRegistrationMessage", ⟨107, 0, 3⟩),
   ("Motorola.AutomaticRegistrationService.ArsQueryMessage", ⟨1, 0, 0⟩),
   ("Motorola.AutomaticRegistrationService.DeviceRegistrationAcknowledgementHeader", ⟨14, 0, 0⟩),
   ("Motorola.AutomaticRegistrationService", ⟨232, 0, 1⟩),
   ("Motorola.MotorolaBinaryXml.LrrpImmediateRequestNcdt", ⟨136, 23, 1⟩),
   ("Motorola.MotorolaBinaryXml.Opaque3byteValue", ⟨6, 0, 0⟩),
   ("Motorola.MotorolaBinaryXml.LrrpElement", ⟨108, 23, 1⟩),
   ("Motorola.MotorolaBinaryXml.Sfloatvar", ⟨114, 23, 0⟩),
   ("Motorola.MotorolaBinaryXml.Opaque5byteValue", ⟨6, 0, 0⟩),
   ("Motorola.MotorolaBinaryXml.Opaque1byteValue", ⟨6, 0, 0⟩),
   ("Motorola.MotorolaBinaryXml.Uintvar", ⟨29, 23, 0⟩),
   ("Motorola.MotorolaBinaryXml.Ufloatvar", ⟨114, 23, 0⟩),
   ("Motorola.MotorolaBinaryXml.ConstantDataTableReference", ⟨57, 23, 0⟩),
   ("Motorola.MotorolaBinaryXml.MbxmlDocument", ⟨236, 23, 1⟩),
   ("Motorola.MotorolaBinaryXml.OpaqueElementValue", ⟨12, 0, 1⟩),
   ("Motorola.MotorolaBinaryXml.Opaque2byteValue", ⟨6, 0, 0⟩),
   ("Motorola.MotorolaBinaryXml.Sintvar", ⟨29, 23, 0⟩),
   ("Motorola.MotorolaBinaryXml.Opaque4byteValue", ⟨6, 0, 0⟩),
   ("Motorola.MotorolaBinaryXml", ⟨283, 300, 0⟩),
   ("Motorola.TextMessageProtocol.TextMessage", ⟨86, 0, 0⟩),
   ("Motorola.TextMessageProtocol.TmsServiceAvailability", ⟨56, 0, 0⟩),
   ("Motorola.TextMessageProtocol.TextMessageHeaderSequenceAndEncoding", ⟨46, 0, 0⟩),
   ("Motorola.TextMessageProtocol.MessageHeaderBits", ⟨38, 0, 0⟩),
   ("Motorola.TextMessageProtocol.TmsAcknowledgement", ⟨82, 0, 0⟩),
   ("Motorola.TextMessageProtocol.TmsAcknowledgementHeaderSequenceNumber", ⟨49, 0, 0⟩),
   ("Motorola.TextMessageProtocol.TmsServiceAvailabilityAcknowledgement", ⟨1, 0, 0⟩),
   ("Motorola.TextMessageProtocol.TmsServiceAvailabilityHeader", ⟨23, 0, 0⟩),
   ("Motorola.TextMessageProtocol", ⟨260, 0, 2⟩)]

/-- What the properties of each name take. That of the property `data` of DmrDataHeader, which opens a stream, is not found in this way. -/
def propertyCosts : List (String × Option Cost) :=
  [("gps_available", some ⟨20, 0, 0⟩),
   ("source_radio_id", some ⟨18, 0, 0⟩),
   ("destination_radio_id", some ⟨18, 0, 0⟩),
   ("color_code", some ⟨18, 0, 0⟩),
   ("is_wakeup", some ⟨28, 0, 0⟩),
   ("opcode", some ⟨34, 0, 0⟩),
   ("radio_id", some ⟨26, 0, 0⟩),
   ("radio_ip", some ⟨35, 0, 0⟩),
   ("len_padding_if_exists", some ⟨39, 0, 0⟩),
   ("len_padding", some ⟨59, 0, 0⟩),
   ("specific_service", some ⟨34, 0, 0⟩),
   ("option_sum_len", some ⟨24, 0, 0⟩),
   ("appended_blocks", some ⟨21, 0, 0⟩),
   ("fifth_letter", some ⟨34, 0, 0⟩),
   ("sequence_number", some ⟨21, 0, 0⟩),
   ("custom_pdu_type", some ⟨34, 0, 0⟩),
   ("data", none)]

/-- What is known of the library. -/
def known : Known := ⟨fun n => readCosts.lookup n, fun x => match propertyCosts.lookup x with
  | some c => c
  | none => some nothing⟩

set_option maxRecDepth 20000 in
theorem library_covered : ∀ d ∈ library.classes, ClassDef.covered known d = true := by
  have : library.classes.all (ClassDef.covered known) = true := by decide +kernel
  exact List.all_eq_true.1 this

theorem library_bounds (n : Nat) : Bounds known (calls library n) ∧ Reads known (calls library n) := bounds_calls library_covered n

end Dmr.Py.Time
