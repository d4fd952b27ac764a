import Verif.Model.EnumNames
import Verif.Ksy.Schema
/-
Every enumeration of the Python program with the one of the same name in the schema file of the same name (generated by
tools/mkenumnames.py).
-/

namespace Dmr

/-- An enumeration class of the Python program, the names of its members, and the enumeration of the schema. -/
structure EnumPair where
  file : String
  E : Type
  [inst : PyEnum E]
  pyName : E → String
  schema : Ksy.EnumDef

/-- All of them. -/
def enumPairs : List EnumPair := [
  ⟨"okdmr/kaitai/hytera/data_delivery_states.py", Hytera.DataDeliveryStates.StateTypes, Hytera.DataDeliveryStates.StateTypes.pyName, Ksy.Hytera.DataDeliveryStates.StateTypes⟩,
  ⟨"okdmr/kaitai/hytera/data_delivery_states.py", Hytera.DataDeliveryStates.Results, Hytera.DataDeliveryStates.Results.pyName, Ksy.Hytera.DataDeliveryStates.Results⟩,
  ⟨"okdmr/kaitai/hytera/data_transmit_protocol.py", Hytera.DataTransmitProtocol.ServiceTypes, Hytera.DataTransmitProtocol.ServiceTypes.pyName, Ksy.Hytera.DataTransmitProtocol.ServiceTypes⟩,
  ⟨"okdmr/kaitai/hytera/data_transmit_protocol.py", Hytera.DataTransmitProtocol.ServiceSpecificTypes, Hytera.DataTransmitProtocol.ServiceSpecificTypes.pyName, Ksy.Hytera.DataTransmitProtocol.ServiceSpecificTypes⟩,
  ⟨"okdmr/kaitai/hytera/data_transmit_protocol.py", Hytera.DataTransmitProtocol.Results, Hytera.DataTransmitProtocol.Results.pyName, Ksy.Hytera.DataTransmitProtocol.Results⟩,
  ⟨"okdmr/kaitai/hytera/hytera_dmr_application_protocol.py", Hytera.HyteraDmrApplicationProtocol.MessageHeaderTypes, Hytera.HyteraDmrApplicationProtocol.MessageHeaderTypes.pyName, Ksy.Hytera.HyteraDmrApplicationProtocol.MessageHeaderTypes⟩,
  ⟨"okdmr/kaitai/hytera/hytera_radio_network_protocol.py", Hytera.HyteraRadioNetworkProtocol.Opcodes, Hytera.HyteraRadioNetworkProtocol.Opcodes.pyName, Ksy.Hytera.HyteraRadioNetworkProtocol.Opcodes⟩,
  ⟨"okdmr/kaitai/hytera/hytera_simple_transport_reliability_protocol.py", Hytera.HyteraSimpleTransportReliabilityProtocol.OptionCommands, Hytera.HyteraSimpleTransportReliabilityProtocol.OptionCommands.pyName, Ksy.Hytera.HyteraSimpleTransportReliabilityProtocol.OptionCommands⟩,
  ⟨"okdmr/kaitai/hytera/ip_site_connect_protocol.py", Hytera.IpSiteConnectProtocol.PacketTypes, Hytera.IpSiteConnectProtocol.PacketTypes.pyName, Ksy.Hytera.IpSiteConnectProtocol.PacketTypes⟩,
  ⟨"okdmr/kaitai/hytera/ip_site_connect_protocol.py", Hytera.IpSiteConnectProtocol.FrameTypes, Hytera.IpSiteConnectProtocol.FrameTypes.pyName, Ksy.Hytera.IpSiteConnectProtocol.FrameTypes⟩,
  ⟨"okdmr/kaitai/hytera/ip_site_connect_protocol.py", Hytera.IpSiteConnectProtocol.CallTypes, Hytera.IpSiteConnectProtocol.CallTypes.pyName, Ksy.Hytera.IpSiteConnectProtocol.CallTypes⟩,
  ⟨"okdmr/kaitai/hytera/ip_site_connect_protocol.py", Hytera.IpSiteConnectProtocol.SlotTypes, Hytera.IpSiteConnectProtocol.SlotTypes.pyName, Ksy.Hytera.IpSiteConnectProtocol.SlotTypes⟩,
  ⟨"okdmr/kaitai/hytera/ip_site_connect_protocol.py", Hytera.IpSiteConnectProtocol.Timeslots, Hytera.IpSiteConnectProtocol.Timeslots.pyName, Ksy.Hytera.IpSiteConnectProtocol.Timeslots⟩,
  ⟨"okdmr/kaitai/hytera/location_protocol.py", Hytera.LocationProtocol.CmdTypes, Hytera.LocationProtocol.CmdTypes.pyName, Ksy.Hytera.LocationProtocol.CmdTypes⟩,
  ⟨"okdmr/kaitai/hytera/location_protocol.py", Hytera.LocationProtocol.LpSpecificTypes, Hytera.LocationProtocol.LpSpecificTypes.pyName, Ksy.Hytera.LocationProtocol.LpSpecificTypes⟩,
  ⟨"okdmr/kaitai/hytera/location_protocol.py", Hytera.LocationProtocol.LpGeneralTypes, Hytera.LocationProtocol.LpGeneralTypes.pyName, Ksy.Hytera.LocationProtocol.LpGeneralTypes⟩,
  ⟨"okdmr/kaitai/hytera/location_protocol.py", Hytera.LocationProtocol.TriggerTypes, Hytera.LocationProtocol.TriggerTypes.pyName, Ksy.Hytera.LocationProtocol.TriggerTypes⟩,
  ⟨"okdmr/kaitai/hytera/location_protocol.py", Hytera.LocationProtocol.ResultCodes, Hytera.LocationProtocol.ResultCodes.pyName, Ksy.Hytera.LocationProtocol.ResultCodes⟩,
  ⟨"okdmr/kaitai/hytera/radio_control_protocol.py", Hytera.RadioControlProtocol.ServiceTypes, Hytera.RadioControlProtocol.ServiceTypes.pyName, Ksy.Hytera.RadioControlProtocol.ServiceTypes⟩,
  ⟨"okdmr/kaitai/hytera/radio_control_protocol.py", Hytera.RadioControlProtocol.CallTypes, Hytera.RadioControlProtocol.CallTypes.pyName, Ksy.Hytera.RadioControlProtocol.CallTypes⟩,
  ⟨"okdmr/kaitai/hytera/radio_control_protocol.py", Hytera.RadioControlProtocol.ReplyResults, Hytera.RadioControlProtocol.ReplyResults.pyName, Ksy.Hytera.RadioControlProtocol.ReplyResults⟩,
  ⟨"okdmr/kaitai/hytera/radio_registration_service.py", Hytera.RadioRegistrationService.RrsTypes, Hytera.RadioRegistrationService.RrsTypes.pyName, Ksy.Hytera.RadioRegistrationService.RrsTypes⟩,
  ⟨"okdmr/kaitai/hytera/real_time_transport_protocol.py", Hytera.RealTimeTransportProtocol.RtpPayloadTypes, Hytera.RealTimeTransportProtocol.RtpPayloadTypes.pyName, Ksy.Hytera.RealTimeTransportProtocol.RtpPayloadTypes⟩,
  ⟨"okdmr/kaitai/hytera/real_time_transport_protocol.py", Hytera.RealTimeTransportProtocol.CallTypes, Hytera.RealTimeTransportProtocol.CallTypes.pyName, Ksy.Hytera.RealTimeTransportProtocol.CallTypes⟩,
  ⟨"okdmr/kaitai/hytera/telemetry_protocol.py", Hytera.TelemetryProtocol.ServiceTypes, Hytera.TelemetryProtocol.ServiceTypes.pyName, Ksy.Hytera.TelemetryProtocol.ServiceTypes⟩,
  ⟨"okdmr/kaitai/hytera/telemetry_protocol.py", Hytera.TelemetryProtocol.ResultTypes, Hytera.TelemetryProtocol.ResultTypes.pyName, Ksy.Hytera.TelemetryProtocol.ResultTypes⟩,
  ⟨"okdmr/kaitai/hytera/telemetry_protocol.py", Hytera.TelemetryProtocol.CallTypes, Hytera.TelemetryProtocol.CallTypes.pyName, Ksy.Hytera.TelemetryProtocol.CallTypes⟩,
  ⟨"okdmr/kaitai/hytera/telemetry_protocol.py", Hytera.TelemetryProtocol.OperationTypes, Hytera.TelemetryProtocol.OperationTypes.pyName, Ksy.Hytera.TelemetryProtocol.OperationTypes⟩,
  ⟨"okdmr/kaitai/hytera/telemetry_protocol.py", Hytera.TelemetryProtocol.PcFlagTypes, Hytera.TelemetryProtocol.PcFlagTypes.pyName, Ksy.Hytera.TelemetryProtocol.PcFlagTypes⟩,
  ⟨"okdmr/kaitai/hytera/telemetry_protocol.py", Hytera.TelemetryProtocol.ServiceSpecificTypes, Hytera.TelemetryProtocol.ServiceSpecificTypes.pyName, Ksy.Hytera.TelemetryProtocol.ServiceSpecificTypes⟩,
  ⟨"okdmr/kaitai/hytera/telemetry_protocol.py", Hytera.TelemetryProtocol.ControlResultTypes, Hytera.TelemetryProtocol.ControlResultTypes.pyName, Ksy.Hytera.TelemetryProtocol.ControlResultTypes⟩,
  ⟨"okdmr/kaitai/hytera/text_message_protocol.py", Hytera.TextMessageProtocol.AckFlags, Hytera.TextMessageProtocol.AckFlags.pyName, Ksy.Hytera.TextMessageProtocol.AckFlags⟩,
  ⟨"okdmr/kaitai/hytera/text_message_protocol.py", Hytera.TextMessageProtocol.OptionFlags, Hytera.TextMessageProtocol.OptionFlags.pyName, Ksy.Hytera.TextMessageProtocol.OptionFlags⟩,
  ⟨"okdmr/kaitai/hytera/text_message_protocol.py", Hytera.TextMessageProtocol.ServiceTypes, Hytera.TextMessageProtocol.ServiceTypes.pyName, Ksy.Hytera.TextMessageProtocol.ServiceTypes⟩,
  ⟨"okdmr/kaitai/hytera/text_message_protocol.py", Hytera.TextMessageProtocol.ResultCodes, Hytera.TextMessageProtocol.ResultCodes.pyName, Ksy.Hytera.TextMessageProtocol.ResultCodes⟩,
  ⟨"okdmr/kaitai/etsi/dmr_csbk.py", Etsi.DmrCsbk.CsbkoTypes, Etsi.DmrCsbk.CsbkoTypes.pyName, Ksy.Etsi.DmrCsbk.CsbkoTypes⟩,
  ⟨"okdmr/kaitai/etsi/dmr_csbk.py", Etsi.DmrCsbk.CsbkDataOrCsbk, Etsi.DmrCsbk.CsbkDataOrCsbk.pyName, Ksy.Etsi.DmrCsbk.CsbkDataOrCsbk⟩,
  ⟨"okdmr/kaitai/etsi/dmr_csbk.py", Etsi.DmrCsbk.CsbkGroupOrIndividual, Etsi.DmrCsbk.CsbkGroupOrIndividual.pyName, Ksy.Etsi.DmrCsbk.CsbkGroupOrIndividual⟩,
  ⟨"okdmr/kaitai/etsi/dmr_csbk.py", Etsi.DmrCsbk.AnswerResponse, Etsi.DmrCsbk.AnswerResponse.pyName, Ksy.Etsi.DmrCsbk.AnswerResponse⟩,
  ⟨"okdmr/kaitai/etsi/dmr_data_header.py", Etsi.DmrDataHeader.UdtFormats, Etsi.DmrDataHeader.UdtFormats.pyName, Ksy.Etsi.DmrDataHeader.UdtFormats⟩,
  ⟨"okdmr/kaitai/etsi/dmr_data_header.py", Etsi.DmrDataHeader.CsbkMbcUdtOpcodes, Etsi.DmrDataHeader.CsbkMbcUdtOpcodes.pyName, Ksy.Etsi.DmrDataHeader.CsbkMbcUdtOpcodes⟩,
  ⟨"okdmr/kaitai/etsi/dmr_data_header.py", Etsi.DmrDataHeader.DataPacketFormats, Etsi.DmrDataHeader.DataPacketFormats.pyName, Ksy.Etsi.DmrDataHeader.DataPacketFormats⟩,
  ⟨"okdmr/kaitai/etsi/dmr_data_header.py", Etsi.DmrDataHeader.SapIdentifiers, Etsi.DmrDataHeader.SapIdentifiers.pyName, Ksy.Etsi.DmrDataHeader.SapIdentifiers⟩,
  ⟨"okdmr/kaitai/etsi/dmr_data_header.py", Etsi.DmrDataHeader.DefinedDataFormats, Etsi.DmrDataHeader.DefinedDataFormats.pyName, Ksy.Etsi.DmrDataHeader.DefinedDataFormats⟩,
  ⟨"okdmr/kaitai/etsi/dmr_data_header.py", Etsi.DmrDataHeader.ResponsePacketClasses, Etsi.DmrDataHeader.ResponsePacketClasses.pyName, Ksy.Etsi.DmrDataHeader.ResponsePacketClasses⟩,
  ⟨"okdmr/kaitai/etsi/dmr_ip_udp.py", Etsi.DmrIpUdp.SourceIpAddressIds, Etsi.DmrIpUdp.SourceIpAddressIds.pyName, Ksy.Etsi.DmrIpUdp.SourceIpAddressIds⟩,
  ⟨"okdmr/kaitai/etsi/dmr_ip_udp.py", Etsi.DmrIpUdp.DestinationIpAddressIds, Etsi.DmrIpUdp.DestinationIpAddressIds.pyName, Ksy.Etsi.DmrIpUdp.DestinationIpAddressIds⟩,
  ⟨"okdmr/kaitai/etsi/dmr_ip_udp.py", Etsi.DmrIpUdp.UdpPortIds, Etsi.DmrIpUdp.UdpPortIds.pyName, Ksy.Etsi.DmrIpUdp.UdpPortIds⟩,
  ⟨"okdmr/kaitai/etsi/full_link_control.py", Etsi.FullLinkControl.Flcos, Etsi.FullLinkControl.Flcos.pyName, Ksy.Etsi.FullLinkControl.Flcos⟩,
  ⟨"okdmr/kaitai/etsi/full_link_control.py", Etsi.FullLinkControl.PositionErrors, Etsi.FullLinkControl.PositionErrors.pyName, Ksy.Etsi.FullLinkControl.PositionErrors⟩,
  ⟨"okdmr/kaitai/etsi/full_link_control.py", Etsi.FullLinkControl.TalkerDataFormats, Etsi.FullLinkControl.TalkerDataFormats.pyName, Ksy.Etsi.FullLinkControl.TalkerDataFormats⟩,
  ⟨"okdmr/kaitai/etsi/full_link_control.py", Etsi.FullLinkControl.FeatureSetIds, Etsi.FullLinkControl.FeatureSetIds.pyName, Ksy.Etsi.FullLinkControl.FeatureSetIds⟩,
  ⟨"okdmr/kaitai/homebrew/homebrew2015.py", Homebrew.Homebrew2015.Timeslots, Homebrew.Homebrew2015.Timeslots.pyName, Ksy.Homebrew.Homebrew2015.Timeslots⟩,
  ⟨"okdmr/kaitai/homebrew/homebrew2015.py", Homebrew.Homebrew2015.CallTypes, Homebrew.Homebrew2015.CallTypes.pyName, Ksy.Homebrew.Homebrew2015.CallTypes⟩,
  ⟨"okdmr/kaitai/homebrew/homebrew2015.py", Homebrew.Homebrew2015.FrameTypes, Homebrew.Homebrew2015.FrameTypes.pyName, Ksy.Homebrew.Homebrew2015.FrameTypes⟩,
  ⟨"okdmr/kaitai/homebrew/mmdvm2020.py", Homebrew.Mmdvm2020.TalkerAliasTypes, Homebrew.Mmdvm2020.TalkerAliasTypes.pyName, Ksy.Homebrew.Mmdvm2020.TalkerAliasTypes⟩,
  ⟨"okdmr/kaitai/homebrew/mmdvm2020.py", Homebrew.Mmdvm2020.FrameTypes, Homebrew.Mmdvm2020.FrameTypes.pyName, Ksy.Homebrew.Mmdvm2020.FrameTypes⟩,
  ⟨"okdmr/kaitai/homebrew/mmdvm2020.py", Homebrew.Mmdvm2020.CallTypes, Homebrew.Mmdvm2020.CallTypes.pyName, Ksy.Homebrew.Mmdvm2020.CallTypes⟩,
  ⟨"okdmr/kaitai/homebrew/mmdvm2020.py", Homebrew.Mmdvm2020.PositionErrors, Homebrew.Mmdvm2020.PositionErrors.pyName, Ksy.Homebrew.Mmdvm2020.PositionErrors⟩,
  ⟨"okdmr/kaitai/homebrew/mmdvm2020.py", Homebrew.Mmdvm2020.Timeslots, Homebrew.Mmdvm2020.Timeslots.pyName, Ksy.Homebrew.Mmdvm2020.Timeslots⟩,
  ⟨"okdmr/kaitai/motorola/automatic_registration_service.py", Motorola.AutomaticRegistrationService.RegistrationEvents, Motorola.AutomaticRegistrationService.RegistrationEvents.pyName, Ksy.Motorola.AutomaticRegistrationService.RegistrationEvents⟩,
  ⟨"okdmr/kaitai/motorola/automatic_registration_service.py", Motorola.AutomaticRegistrationService.FailureReasons, Motorola.AutomaticRegistrationService.FailureReasons.pyName, Ksy.Motorola.AutomaticRegistrationService.FailureReasons⟩,
  ⟨"okdmr/kaitai/motorola/motorola_binary_xml.py", Motorola.MotorolaBinaryXml.Docids, Motorola.MotorolaBinaryXml.Docids.pyName, Ksy.Motorola.MotorolaBinaryXml.Docids⟩,
  ⟨"okdmr/kaitai/motorola/motorola_binary_xml.py", Motorola.MotorolaBinaryXml.LrrpElements, Motorola.MotorolaBinaryXml.LrrpElements.pyName, Ksy.Motorola.MotorolaBinaryXml.LrrpElements⟩,
  ⟨"okdmr/kaitai/motorola/text_message_protocol.py", Motorola.TextMessageProtocol.TmsServiceCapability, Motorola.TextMessageProtocol.TmsServiceCapability.pyName, Ksy.Motorola.TextMessageProtocol.TmsServiceCapability⟩]

end Dmr
