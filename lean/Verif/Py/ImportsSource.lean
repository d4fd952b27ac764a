import Verif.Py.Imports
/-
Written by tools/mkimports.py from the Python source: what the modules of the library do when they are imported. The modules stand after those that
they import.
-/

set_option autoImplicit false

namespace Dmr.Py.Imports.Source

/-- the directory /repo/okdmr (without `__init__.py`) -/
def okdmr : Module where
  name := n!"okdmr"
  parent := none
  body := []
  later := []

/-- the directory /repo/okdmr/kaitai (without `__init__.py`) -/
def okdmr_kaitai : Module where
  name := n!"okdmr.kaitai"
  parent := some (n!"okdmr", n!"kaitai")
  body := []
  later := []

/-- /repo/okdmr/kaitai/etsi/__init__.py -/
def okdmr_kaitai_etsi : Module where
  name := n!"okdmr.kaitai.etsi"
  parent := some (n!"okdmr.kaitai", n!"etsi")
  body := []
  later := []

/-- /repo/okdmr/kaitai/etsi/dmr_csbk.py -/
def okdmr_kaitai_etsi_dmr_csbk : Module where
  name := n!"okdmr.kaitai.etsi.dmr_csbk"
  parent := some (n!"okdmr.kaitai.etsi", n!"dmr_csbk")
  body := [.import_ n!"kaitaistruct",
    .from_ n!"kaitaistruct" n!"KaitaiStruct",
    .from_ n!"kaitaistruct" n!"KaitaiStream",
    .from_ n!"kaitaistruct" n!"BytesIO",
    .from_ n!"enum" n!"Enum",
    .check,
    .define n!"DmrCsbk"
      [(n!"KaitaiStruct", []), (n!"Enum", [])]
      [[n!"DmrCsbk"], [n!"DmrCsbk", n!"CsbkoTypes"], [n!"DmrCsbk", n!"CsbkoTypes", n!"unit_to_unit_voice_service_request"], [n!"DmrCsbk", n!"CsbkoTypes", n!"unit_to_unit_voice_service_answer_response"], [n!"DmrCsbk", n!"CsbkoTypes", n!"channel_timing"], [n!"DmrCsbk", n!"CsbkoTypes", n!"negative_acknowledge_response"], [n!"DmrCsbk", n!"CsbkoTypes", n!"bs_outbound_activation_csbk_pdu"], [n!"DmrCsbk", n!"CsbkoTypes", n!"preamble"], [n!"DmrCsbk", n!"CsbkDataOrCsbk"], [n!"DmrCsbk", n!"CsbkDataOrCsbk", n!"csbk_content_follows_preambles"], [n!"DmrCsbk", n!"CsbkDataOrCsbk", n!"data_content_follows_preambles"], [n!"DmrCsbk", n!"CsbkGroupOrIndividual"], [n!"DmrCsbk", n!"CsbkGroupOrIndividual", n!"target_address_is_an_individual"], [n!"DmrCsbk", n!"CsbkGroupOrIndividual", n!"target_address_is_a_group"], [n!"DmrCsbk", n!"AnswerResponse"], [n!"DmrCsbk", n!"AnswerResponse", n!"proceed"], [n!"DmrCsbk", n!"AnswerResponse", n!"deny"], [n!"DmrCsbk", n!"_read"], [n!"DmrCsbk", n!"NegativeAckResponseData"], [n!"DmrCsbk", n!"NegativeAckResponseData", n!"_read"], [n!"DmrCsbk", n!"UnitToUnitVoiceRequestData"], [n!"DmrCsbk", n!"UnitToUnitVoiceRequestData", n!"_read"], [n!"DmrCsbk", n!"ServiceOptions"], [n!"DmrCsbk", n!"ServiceOptions", n!"_read"], [n!"DmrCsbk", n!"PreambleData"], [n!"DmrCsbk", n!"PreambleData", n!"_read"], [n!"DmrCsbk", n!"ChannelTimingData"], [n!"DmrCsbk", n!"ChannelTimingData", n!"_read"], [n!"DmrCsbk", n!"BsOutboundActivationData"], [n!"DmrCsbk", n!"BsOutboundActivationData", n!"_read"], [n!"DmrCsbk", n!"UnitToUnitVoiceAnswerData"], [n!"DmrCsbk", n!"UnitToUnitVoiceAnswerData", n!"_read"]]]
  later := [(n!"KaitaiStream", [n!"resolve_enum"]), (n!"DmrCsbk", [n!"CsbkoTypes"]), (n!"DmrCsbk", [n!"CsbkoTypes", n!"unit_to_unit_voice_service_answer_response"]), (n!"DmrCsbk", [n!"UnitToUnitVoiceAnswerData"]), (n!"DmrCsbk", [n!"CsbkoTypes", n!"preamble"]), (n!"DmrCsbk", [n!"PreambleData"]), (n!"DmrCsbk", [n!"CsbkoTypes", n!"channel_timing"]), (n!"DmrCsbk", [n!"ChannelTimingData"]), (n!"DmrCsbk", [n!"CsbkoTypes", n!"unit_to_unit_voice_service_request"]), (n!"DmrCsbk", [n!"UnitToUnitVoiceRequestData"]), (n!"DmrCsbk", [n!"CsbkoTypes", n!"bs_outbound_activation_csbk_pdu"]), (n!"DmrCsbk", [n!"BsOutboundActivationData"]), (n!"DmrCsbk", [n!"CsbkoTypes", n!"negative_acknowledge_response"]), (n!"DmrCsbk", [n!"NegativeAckResponseData"]), (n!"DmrCsbk", [n!"ServiceOptions"]), (n!"DmrCsbk", [n!"CsbkDataOrCsbk"]), (n!"DmrCsbk", [n!"CsbkGroupOrIndividual"]), (n!"DmrCsbk", [n!"AnswerResponse"])]

/-- /repo/okdmr/kaitai/etsi/dmr_data.py -/
def okdmr_kaitai_etsi_dmr_data : Module where
  name := n!"okdmr.kaitai.etsi.dmr_data"
  parent := some (n!"okdmr.kaitai.etsi", n!"dmr_data")
  body := [.import_ n!"kaitaistruct",
    .from_ n!"kaitaistruct" n!"KaitaiStruct",
    .from_ n!"kaitaistruct" n!"KaitaiStream",
    .from_ n!"kaitaistruct" n!"BytesIO",
    .check,
    .define n!"DmrData"
      [(n!"KaitaiStruct", [])]
      [[n!"DmrData"], [n!"DmrData", n!"_read"], [n!"DmrData", n!"Rate1LastBlockUnconfirmed"], [n!"DmrData", n!"Rate1LastBlockUnconfirmed", n!"_read"], [n!"DmrData", n!"Rate12LastBlockConfirmed"], [n!"DmrData", n!"Rate12LastBlockConfirmed", n!"_read"], [n!"DmrData", n!"Rate12Confirmed"], [n!"DmrData", n!"Rate12Confirmed", n!"_read"], [n!"DmrData", n!"Rate34LastBlockUnconfirmed"], [n!"DmrData", n!"Rate34LastBlockUnconfirmed", n!"_read"], [n!"DmrData", n!"Rate1LastBlockConfirmed"], [n!"DmrData", n!"Rate1LastBlockConfirmed", n!"_read"], [n!"DmrData", n!"Rate1Unconfirmed"], [n!"DmrData", n!"Rate1Unconfirmed", n!"_read"], [n!"DmrData", n!"UdtLastBlock"], [n!"DmrData", n!"UdtLastBlock", n!"_read"], [n!"DmrData", n!"Rate34Confirmed"], [n!"DmrData", n!"Rate34Confirmed", n!"_read"], [n!"DmrData", n!"Rate34LastBlockConfirmed"], [n!"DmrData", n!"Rate34LastBlockConfirmed", n!"_read"], [n!"DmrData", n!"Rate34Unconfirmed"], [n!"DmrData", n!"Rate34Unconfirmed", n!"_read"], [n!"DmrData", n!"Rate12LastBlockUnconfirmed"], [n!"DmrData", n!"Rate12LastBlockUnconfirmed", n!"_read"], [n!"DmrData", n!"Rate1Confirmed"], [n!"DmrData", n!"Rate1Confirmed", n!"_read"], [n!"DmrData", n!"Rate12Unconfirmed"], [n!"DmrData", n!"Rate12Unconfirmed", n!"_read"]]]
  later := []

/-- /repo/okdmr/kaitai/etsi/dmr_data_header.py -/
def okdmr_kaitai_etsi_dmr_data_header : Module where
  name := n!"okdmr.kaitai.etsi.dmr_data_header"
  parent := some (n!"okdmr.kaitai.etsi", n!"dmr_data_header")
  body := [.import_ n!"kaitaistruct",
    .from_ n!"kaitaistruct" n!"KaitaiStruct",
    .from_ n!"kaitaistruct" n!"KaitaiStream",
    .from_ n!"kaitaistruct" n!"BytesIO",
    .from_ n!"enum" n!"Enum",
    .check,
    .define n!"DmrDataHeader"
      [(n!"KaitaiStruct", []), (n!"Enum", []), (n!"property", [])]
      [[n!"DmrDataHeader"], [n!"DmrDataHeader", n!"UdtFormats"], [n!"DmrDataHeader", n!"UdtFormats", n!"binary"], [n!"DmrDataHeader", n!"UdtFormats", n!"ms_or_tg_address"], [n!"DmrDataHeader", n!"UdtFormats", n!"bcd_4bit"], [n!"DmrDataHeader", n!"UdtFormats", n!"iso_7bit_coded_characters"], [n!"DmrDataHeader", n!"UdtFormats", n!"iso_8bit_coded_characters"], [n!"DmrDataHeader", n!"UdtFormats", n!"nmea_location_coded"], [n!"DmrDataHeader", n!"UdtFormats", n!"ip_address"], [n!"DmrDataHeader", n!"UdtFormats", n!"unicode_16bit_characters"], [n!"DmrDataHeader", n!"UdtFormats", n!"manufacturer_specific"], [n!"DmrDataHeader", n!"UdtFormats", n!"manufacturer_specific_2"], [n!"DmrDataHeader", n!"UdtFormats", n!"mixed_address_and_16bit_utf16be_characters"], [n!"DmrDataHeader", n!"CsbkMbcUdtOpcodes"], [n!"DmrDataHeader", n!"CsbkMbcUdtOpcodes", n!"c_aloha"], [n!"DmrDataHeader", n!"CsbkMbcUdtOpcodes", n!"c_udthd"], [n!"DmrDataHeader", n!"CsbkMbcUdtOpcodes", n!"c_udthu"], [n!"DmrDataHeader", n!"CsbkMbcUdtOpcodes", n!"c_or_p_ahoy"], [n!"DmrDataHeader", n!"CsbkMbcUdtOpcodes", n!"c_ackvit"], [n!"DmrDataHeader", n!"CsbkMbcUdtOpcodes", n!"c_rand"], [n!"DmrDataHeader", n!"CsbkMbcUdtOpcodes", n!"c_ackd"], [n!"DmrDataHeader", n!"CsbkMbcUdtOpcodes", n!"c_acku"], [n!"DmrDataHeader", n!"CsbkMbcUdtOpcodes", n!"p_ackd"], [n!"DmrDataHeader", n!"CsbkMbcUdtOpcodes", n!"p_acku"], [n!"DmrDataHeader", n!"CsbkMbcUdtOpcodes", n!"c_dgnahd"], [n!"DmrDataHeader", n!"CsbkMbcUdtOpcodes", n!"c_dgnahu"], [n!"DmrDataHeader", n!"CsbkMbcUdtOpcodes", n!"c_bcast"], [n!"DmrDataHeader", n!"CsbkMbcUdtOpcodes", n!"p_maint"], [n!"DmrDataHeader", n!"CsbkMbcUdtOpcodes", n!"p_clear"], [n!"DmrDataHeader", n!"CsbkMbcUdtOpcodes", n!"p_protect"], [n!"DmrDataHeader", n!"CsbkMbcUdtOpcodes", n!"pv_grant"], [n!"DmrDataHeader", n!"CsbkMbcUdtOpcodes", n!"tv_grant"], [n!"DmrDataHeader", n!"CsbkMbcUdtOpcodes", n!"btv_grant"], [n!"DmrDataHeader", n!"CsbkMbcUdtOpcodes", n!"pd_grant"], [n!"DmrDataHeader", n!"CsbkMbcUdtOpcodes", n!"td_grant"], [n!"DmrDataHeader", n!"CsbkMbcUdtOpcodes", n!"pv_grant_dx"], [n!"DmrDataHeader", n!"CsbkMbcUdtOpcodes", n!"pd_grant_dx"], [n!"DmrDataHeader", n!"CsbkMbcUdtOpcodes", n!"pd_grant_mi"], [n!"DmrDataHeader", n!"CsbkMbcUdtOpcodes", n!"td_grant_mi"], [n!"DmrDataHeader", n!"CsbkMbcUdtOpcodes", n!"c_move"], [n!"DmrDataHeader", n!"DataPacketFormats"], [n!"DmrDataHeader", n!"DataPacketFormats", n!"unified_data_transport"], [n!"DmrDataHeader", n!"DataPacketFormats", n!"response_packet"], [n!"DmrDataHeader", n!"DataPacketFormats", n!"data_packet_unconfirmed"], [n!"DmrDataHeader", n!"DataPacketFormats", n!"data_packet_confirmed"], [n!"DmrDataHeader", n!"DataPacketFormats", n!"short_data_defined"], [n!"DmrDataHeader", n!"DataPacketFormats", n!"short_data_raw_or_status_or_precoded"], [n!"DmrDataHeader", n!"DataPacketFormats", n!"proprietary"], [n!"DmrDataHeader", n!"SapIdentifiers"], [n!"DmrDataHeader", n!"SapIdentifiers", n!"unified_data_transport"], [n!"DmrDataHeader", n!"SapIdentifiers", n!"tcp_ip_header_compression"], [n!"DmrDataHeader", n!"SapIdentifiers", n!"udp_ip_header_compression"], [n!"DmrDataHeader", n!"SapIdentifiers", n!"ip_based_packet_data"], [n!"DmrDataHeader", n!"SapIdentifiers", n!"arp_address_resolution_protocol"], [n!"DmrDataHeader", n!"SapIdentifiers", n!"proprietary_packet_data"], [n!"DmrDataHeader", n!"SapIdentifiers", n!"short_data"], [n!"DmrDataHeader", n!"DefinedDataFormats"], [n!"DmrDataHeader", n!"DefinedDataFormats", n!"binary"], [n!"DmrDataHeader", n!"DefinedDataFormats", n!"bcd"], [n!"DmrDataHeader", n!"DefinedDataFormats", n!"coding_7bit"], [n!"DmrDataHeader", n!"DefinedDataFormats", n!"coding_8bit_8859_1"], [n!"DmrDataHeader", n!"DefinedDataFormats", n!"coding_8bit_8859_2"], [n!"DmrDataHeader", n!"DefinedDataFormats", n!"coding_8bit_8859_3"], [n!"DmrDataHeader", n!"DefinedDataFormats", n!"coding_8bit_8859_4"], [n!"DmrDataHeader", n!"DefinedDataFormats", n!"coding_8bit_8859_5"], [n!"DmrDataHeader", n!"DefinedDataFormats", n!"coding_8bit_8859_6"], [n!"DmrDataHeader", n!"DefinedDataFormats", n!"coding_8bit_8859_7"], [n!"DmrDataHeader", n!"DefinedDataFormats", n!"coding_8bit_8859_8"], [n!"DmrDataHeader", n!"DefinedDataFormats", n!"coding_8bit_8859_9"], [n!"DmrDataHeader", n!"DefinedDataFormats", n!"coding_8bit_8859_10"], [n!"DmrDataHeader", n!"DefinedDataFormats", n!"coding_8bit_8859_11"], [n!"DmrDataHeader", n!"DefinedDataFormats", n!"coding_8bit_8859_13"], [n!"DmrDataHeader", n!"DefinedDataFormats", n!"coding_8bit_8859_14"], [n!"DmrDataHeader", n!"DefinedDataFormats", n!"coding_8bit_8859_15"], [n!"DmrDataHeader", n!"DefinedDataFormats", n!"coding_8bit_8859_16"], [n!"DmrDataHeader", n!"DefinedDataFormats", n!"unicode_utf8"], [n!"DmrDataHeader", n!"DefinedDataFormats", n!"unicode_utf16"], [n!"DmrDataHeader", n!"DefinedDataFormats", n!"unicode_utf16be"], [n!"DmrDataHeader", n!"DefinedDataFormats", n!"unicode_utf16le"], [n!"DmrDataHeader", n!"DefinedDataFormats", n!"unicode_utf32"], [n!"DmrDataHeader", n!"DefinedDataFormats", n!"unicode_utf32be"], [n!"DmrDataHeader", n!"DefinedDataFormats", n!"unicode_utf32le"], [n!"DmrDataHeader", n!"ResponsePacketClasses"], [n!"DmrDataHeader", n!"ResponsePacketClasses", n!"ack"], [n!"DmrDataHeader", n!"ResponsePacketClasses", n!"nack"], [n!"DmrDataHeader", n!"ResponsePacketClasses", n!"sack"], [n!"DmrDataHeader", n!"_read"], [n!"DmrDataHeader", n!"DataHeaderShortRaw"], [n!"DmrDataHeader", n!"DataHeaderShortRaw", n!"_read"], [n!"DmrDataHeader", n!"DataHeaderShortRaw", n!"appended_blocks"], [n!"DmrDataHeader", n!"DataHeaderProprietary"], [n!"DmrDataHeader", n!"DataHeaderProprietary", n!"_read"], [n!"DmrDataHeader", n!"DataHeaderUndefined"], [n!"DmrDataHeader", n!"DataHeaderUndefined", n!"_read"], [n!"DmrDataHeader", n!"DataHeaderShortStatusPrecoded"], [n!"DmrDataHeader", n!"DataHeaderShortStatusPrecoded", n!"_read"], [n!"DmrDataHeader", n!"DataHeaderShortStatusPrecoded", n!"appended_blocks"], [n!"DmrDataHeader", n!"DataHeaderResponse"], [n!"DmrDataHeader", n!"DataHeaderResponse", n!"_read"], [n!"DmrDataHeader", n!"DataHeaderConfirmed"], [n!"DmrDataHeader", n!"DataHeaderConfirmed", n!"_read"], [n!"DmrDataHeader", n!"DataHeaderUnconfirmed"], [n!"DmrDataHeader", n!"DataHeaderUnconfirmed", n!"_read"], [n!"DmrDataHeader", n!"DataHeaderShortDefined"], [n!"DmrDataHeader", n!"DataHeaderShortDefined", n!"_read"], [n!"DmrDataHeader", n!"DataHeaderShortDefined", n!"appended_blocks"], [n!"DmrDataHeader", n!"DataHeaderUdt"], [n!"DmrDataHeader", n!"DataHeaderUdt", n!"_read"], [n!"DmrDataHeader", n!"data"]]]
  later := [(n!"KaitaiStream", [n!"resolve_enum"]), (n!"DmrDataHeader", [n!"DataPacketFormats"]), (n!"DmrDataHeader", [n!"SapIdentifiers"]), (n!"hasattr", []), (n!"getattr", []), (n!"DmrDataHeader", [n!"ResponsePacketClasses"]), (n!"DmrDataHeader", [n!"DefinedDataFormats"]), (n!"DmrDataHeader", [n!"UdtFormats"]), (n!"DmrDataHeader", [n!"CsbkMbcUdtOpcodes"]), (n!"DmrDataHeader", [n!"DataPacketFormats", n!"proprietary"]), (n!"KaitaiStream", []), (n!"BytesIO", []), (n!"DmrDataHeader", [n!"DataHeaderProprietary"]), (n!"DmrDataHeader", [n!"DataPacketFormats", n!"short_data_defined"]), (n!"DmrDataHeader", [n!"DataHeaderShortDefined"]), (n!"DmrDataHeader", [n!"DataPacketFormats", n!"data_packet_unconfirmed"]), (n!"DmrDataHeader", [n!"DataHeaderUnconfirmed"]), (n!"DmrDataHeader", [n!"DataPacketFormats", n!"data_packet_confirmed"]), (n!"DmrDataHeader", [n!"DataHeaderConfirmed"]), (n!"DmrDataHeader", [n!"DataPacketFormats", n!"unified_data_transport"]), (n!"DmrDataHeader", [n!"DataHeaderUdt"]), (n!"DmrDataHeader", [n!"DataPacketFormats", n!"short_data_raw_or_status_or_precoded"]), (n!"DmrDataHeader", [n!"DataHeaderShortStatusPrecoded"]), (n!"DmrDataHeader", [n!"DataPacketFormats", n!"response_packet"]), (n!"DmrDataHeader", [n!"DataHeaderResponse"]), (n!"DmrDataHeader", [n!"DataHeaderUndefined"])]

/-- /repo/okdmr/kaitai/etsi/dmr_ip_udp.py -/
def okdmr_kaitai_etsi_dmr_ip_udp : Module where
  name := n!"okdmr.kaitai.etsi.dmr_ip_udp"
  parent := some (n!"okdmr.kaitai.etsi", n!"dmr_ip_udp")
  body := [.import_ n!"kaitaistruct",
    .from_ n!"kaitaistruct" n!"KaitaiStruct",
    .from_ n!"kaitaistruct" n!"KaitaiStream",
    .from_ n!"kaitaistruct" n!"BytesIO",
    .from_ n!"enum" n!"Enum",
    .check,
    .define n!"DmrIpUdp"
      [(n!"KaitaiStruct", []), (n!"Enum", [])]
      [[n!"DmrIpUdp"], [n!"DmrIpUdp", n!"SourceIpAddressIds"], [n!"DmrIpUdp", n!"SourceIpAddressIds", n!"radio_network"], [n!"DmrIpUdp", n!"SourceIpAddressIds", n!"usb_ethernet_interface_network"], [n!"DmrIpUdp", n!"DestinationIpAddressIds"], [n!"DmrIpUdp", n!"DestinationIpAddressIds", n!"radio_network"], [n!"DmrIpUdp", n!"DestinationIpAddressIds", n!"usb_ethernet_interface_network"], [n!"DmrIpUdp", n!"DestinationIpAddressIds", n!"group_network"], [n!"DmrIpUdp", n!"UdpPortIds"], [n!"DmrIpUdp", n!"UdpPortIds", n!"present_in_extended_header"], [n!"DmrIpUdp", n!"UdpPortIds", n!"utf16be_text_message_port_5016"], [n!"DmrIpUdp", n!"UdpPortIds", n!"location_interface_protocol"], [n!"DmrIpUdp", n!"_read"], [n!"DmrIpUdp", n!"UdpIpv4CompressedHeader"], [n!"DmrIpUdp", n!"UdpIpv4CompressedHeader", n!"_read"]]]
  later := [(n!"KaitaiStream", [n!"resolve_enum"]), (n!"DmrIpUdp", [n!"SourceIpAddressIds"]), (n!"DmrIpUdp", [n!"DestinationIpAddressIds"]), (n!"DmrIpUdp", [n!"UdpPortIds"]), (n!"DmrIpUdp", [n!"UdpPortIds", n!"present_in_extended_header"])]

/-- /repo/okdmr/kaitai/etsi/full_link_control.py -/
def okdmr_kaitai_etsi_full_link_control : Module where
  name := n!"okdmr.kaitai.etsi.full_link_control"
  parent := some (n!"okdmr.kaitai.etsi", n!"full_link_control")
  body := [.import_ n!"kaitaistruct",
    .from_ n!"kaitaistruct" n!"KaitaiStruct",
    .from_ n!"kaitaistruct" n!"KaitaiStream",
    .from_ n!"kaitaistruct" n!"BytesIO",
    .from_ n!"enum" n!"Enum",
    .check,
    .define n!"FullLinkControl"
      [(n!"KaitaiStruct", []), (n!"Enum", [])]
      [[n!"FullLinkControl"], [n!"FullLinkControl", n!"Flcos"], [n!"FullLinkControl", n!"Flcos", n!"group_voice"], [n!"FullLinkControl", n!"Flcos", n!"unit_to_unit_voice"], [n!"FullLinkControl", n!"Flcos", n!"talker_alias_header"], [n!"FullLinkControl", n!"Flcos", n!"talker_alias_block1"], [n!"FullLinkControl", n!"Flcos", n!"talker_alias_block2"], [n!"FullLinkControl", n!"Flcos", n!"talker_alias_block3"], [n!"FullLinkControl", n!"Flcos", n!"gps_info"], [n!"FullLinkControl", n!"PositionErrors"], [n!"FullLinkControl", n!"PositionErrors", n!"less_than_2m"], [n!"FullLinkControl", n!"PositionErrors", n!"less_than_20m"], [n!"FullLinkControl", n!"PositionErrors", n!"less_than_200m"], [n!"FullLinkControl", n!"PositionErrors", n!"less_than_2km"], [n!"FullLinkControl", n!"PositionErrors", n!"less_than_20km"], [n!"FullLinkControl", n!"PositionErrors", n!"less_than_or_equal_200km"], [n!"FullLinkControl", n!"PositionErrors", n!"more_than_200km"], [n!"FullLinkControl", n!"PositionErrors", n!"position_error_unknown_or_invalid"], [n!"FullLinkControl", n!"TalkerDataFormats"], [n!"FullLinkControl", n!"TalkerDataFormats", n!"coding_7bit"], [n!"FullLinkControl", n!"TalkerDataFormats", n!"coding_8bit"], [n!"FullLinkControl", n!"TalkerDataFormats", n!"unicode_utf8"], [n!"FullLinkControl", n!"TalkerDataFormats", n!"unicode_utf16"], [n!"FullLinkControl", n!"FeatureSetIds"], [n!"FullLinkControl", n!"FeatureSetIds", n!"standardized_ts_102_361_2"], [n!"FullLinkControl", n!"FeatureSetIds", n!"reserved1"], [n!"FullLinkControl", n!"FeatureSetIds", n!"reserved2"], [n!"FullLinkControl", n!"FeatureSetIds", n!"reserved3"], [n!"FullLinkControl", n!"FeatureSetIds", n!"mfid_start"], [n!"FullLinkControl", n!"FeatureSetIds", n!"mfid_end"], [n!"FullLinkControl", n!"FeatureSetIds", n!"mfid_reserved_start"], [n!"FullLinkControl", n!"FeatureSetIds", n!"mfid_reserved_end"], [n!"FullLinkControl", n!"_read"], [n!"FullLinkControl", n!"GpsInfoLcPdu"], [n!"FullLinkControl", n!"GpsInfoLcPdu", n!"_read"], [n!"FullLinkControl", n!"GroupVoiceChannelUser"], [n!"FullLinkControl", n!"GroupVoiceChannelUser", n!"_read"], [n!"FullLinkControl", n!"UnitToUnitVoiceChannelUser"], [n!"FullLinkControl", n!"UnitToUnitVoiceChannelUser", n!"_read"], [n!"FullLinkControl", n!"TalkerAliasHeader"], [n!"FullLinkControl", n!"TalkerAliasHeader", n!"_read"], [n!"FullLinkControl", n!"TalkerAliasContinuation"], [n!"FullLinkControl", n!"TalkerAliasContinuation", n!"_read"]]]
  later := [(n!"KaitaiStream", [n!"resolve_enum"]), (n!"FullLinkControl", [n!"Flcos"]), (n!"FullLinkControl", [n!"FeatureSetIds"]), (n!"FullLinkControl", [n!"Flcos", n!"talker_alias_header"]), (n!"FullLinkControl", [n!"TalkerAliasHeader"]), (n!"FullLinkControl", [n!"Flcos", n!"unit_to_unit_voice"]), (n!"FullLinkControl", [n!"UnitToUnitVoiceChannelUser"]), (n!"FullLinkControl", [n!"Flcos", n!"group_voice"]), (n!"FullLinkControl", [n!"GroupVoiceChannelUser"]), (n!"FullLinkControl", [n!"Flcos", n!"talker_alias_block3"]), (n!"FullLinkControl", [n!"TalkerAliasContinuation"]), (n!"FullLinkControl", [n!"Flcos", n!"talker_alias_block1"]), (n!"FullLinkControl", [n!"Flcos", n!"talker_alias_block2"]), (n!"FullLinkControl", [n!"Flcos", n!"gps_info"]), (n!"FullLinkControl", [n!"GpsInfoLcPdu"]), (n!"FullLinkControl", [n!"PositionErrors"]), (n!"FullLinkControl", [n!"TalkerDataFormats"])]

/-- /repo/okdmr/kaitai/homebrew/__init__.py -/
def okdmr_kaitai_homebrew : Module where
  name := n!"okdmr.kaitai.homebrew"
  parent := some (n!"okdmr.kaitai", n!"homebrew")
  body := []
  later := []

/-- /repo/okdmr/kaitai/homebrew/homebrew2015.py -/
def okdmr_kaitai_homebrew_homebrew2015 : Module where
  name := n!"okdmr.kaitai.homebrew.homebrew2015"
  parent := some (n!"okdmr.kaitai.homebrew", n!"homebrew2015")
  body := [.import_ n!"kaitaistruct",
    .from_ n!"kaitaistruct" n!"KaitaiStruct",
    .from_ n!"kaitaistruct" n!"KaitaiStream",
    .from_ n!"kaitaistruct" n!"BytesIO",
    .from_ n!"enum" n!"Enum",
    .check,
    .define n!"Homebrew2015"
      [(n!"KaitaiStruct", []), (n!"Enum", []), (n!"property", [])]
      [[n!"Homebrew2015"], [n!"Homebrew2015", n!"Timeslots"], [n!"Homebrew2015", n!"Timeslots", n!"timeslot_1"], [n!"Homebrew2015", n!"Timeslots", n!"timeslot_2"], [n!"Homebrew2015", n!"CallTypes"], [n!"Homebrew2015", n!"CallTypes", n!"group_call"], [n!"Homebrew2015", n!"CallTypes", n!"private_call"], [n!"Homebrew2015", n!"FrameTypes"], [n!"Homebrew2015", n!"FrameTypes", n!"voice_data"], [n!"Homebrew2015", n!"FrameTypes", n!"voice_sync"], [n!"Homebrew2015", n!"FrameTypes", n!"data_or_data_sync"], [n!"Homebrew2015", n!"FrameTypes", n!"unused"], [n!"Homebrew2015", n!"_read"], [n!"Homebrew2015", n!"TypeMasterPing"], [n!"Homebrew2015", n!"TypeMasterPing", n!"_read"], [n!"Homebrew2015", n!"TypeRepeaterPong"], [n!"Homebrew2015", n!"TypeRepeaterPong", n!"_read"], [n!"Homebrew2015", n!"TypeRepeaterConfigurationOrClosing"], [n!"Homebrew2015", n!"TypeRepeaterConfigurationOrClosing", n!"_read"], [n!"Homebrew2015", n!"TypeRepeaterLoginResponse"], [n!"Homebrew2015", n!"TypeRepeaterLoginResponse", n!"_read"], [n!"Homebrew2015", n!"TypeRepeaterLoginRequest"], [n!"Homebrew2015", n!"TypeRepeaterLoginRequest", n!"_read"], [n!"Homebrew2015", n!"TypeMasterNotAccept"], [n!"Homebrew2015", n!"TypeMasterNotAccept", n!"_read"], [n!"Homebrew2015", n!"TypeMasterRepeaterAck"], [n!"Homebrew2015", n!"TypeMasterRepeaterAck", n!"_read"], [n!"Homebrew2015", n!"TypeMasterClosing"], [n!"Homebrew2015", n!"TypeMasterClosing", n!"_read"], [n!"Homebrew2015", n!"TypeDmrData"], [n!"Homebrew2015", n!"TypeDmrData", n!"_read"], [n!"Homebrew2015", n!"TypeRepeaterOptions"], [n!"Homebrew2015", n!"TypeRepeaterOptions", n!"_read"], [n!"Homebrew2015", n!"TypeRepeaterClosing"], [n!"Homebrew2015", n!"TypeRepeaterClosing", n!"_read"], [n!"Homebrew2015", n!"TypeRepeaterConfiguration"], [n!"Homebrew2015", n!"TypeRepeaterConfiguration", n!"_read"], [n!"Homebrew2015", n!"fifth_letter"]]]
  later := [(n!"Homebrew2015", [n!"TypeRepeaterLoginRequest"]), (n!"Homebrew2015", [n!"TypeMasterRepeaterAck"]), (n!"Homebrew2015", [n!"TypeRepeaterLoginResponse"]), (n!"Homebrew2015", [n!"TypeRepeaterConfigurationOrClosing"]), (n!"Homebrew2015", [n!"TypeDmrData"]), (n!"Homebrew2015", [n!"TypeMasterClosing"]), (n!"Homebrew2015", [n!"TypeRepeaterPong"]), (n!"Homebrew2015", [n!"TypeMasterPing"]), (n!"Homebrew2015", [n!"TypeMasterNotAccept"]), (n!"kaitaistruct", [n!"ValidationNotEqualError"]), (n!"Homebrew2015", [n!"TypeRepeaterClosing"]), (n!"Homebrew2015", [n!"TypeRepeaterConfiguration"]), (n!"KaitaiStream", [n!"resolve_enum"]), (n!"Homebrew2015", [n!"Timeslots"]), (n!"Homebrew2015", [n!"CallTypes"]), (n!"Homebrew2015", [n!"FrameTypes"]), (n!"hasattr", []), (n!"getattr", [])]

/-- /repo/okdmr/kaitai/homebrew/mmdvm2020.py -/
def okdmr_kaitai_homebrew_mmdvm2020 : Module where
  name := n!"okdmr.kaitai.homebrew.mmdvm2020"
  parent := some (n!"okdmr.kaitai.homebrew", n!"mmdvm2020")
  body := [.import_ n!"kaitaistruct",
    .from_ n!"kaitaistruct" n!"KaitaiStruct",
    .from_ n!"kaitaistruct" n!"KaitaiStream",
    .from_ n!"kaitaistruct" n!"BytesIO",
    .from_ n!"enum" n!"Enum",
    .check,
    .define n!"Mmdvm2020"
      [(n!"KaitaiStruct", []), (n!"Enum", []), (n!"property", [])]
      [[n!"Mmdvm2020"], [n!"Mmdvm2020", n!"TalkerAliasTypes"], [n!"Mmdvm2020", n!"TalkerAliasTypes", n!"talker_alias_header"], [n!"Mmdvm2020", n!"TalkerAliasTypes", n!"talker_alias_block_1"], [n!"Mmdvm2020", n!"TalkerAliasTypes", n!"talker_alias_block_2"], [n!"Mmdvm2020", n!"TalkerAliasTypes", n!"talker_alias_block_3"], [n!"Mmdvm2020", n!"FrameTypes"], [n!"Mmdvm2020", n!"FrameTypes", n!"voice_data"], [n!"Mmdvm2020", n!"FrameTypes", n!"voice_sync"], [n!"Mmdvm2020", n!"FrameTypes", n!"data_or_data_sync"], [n!"Mmdvm2020", n!"FrameTypes", n!"unused"], [n!"Mmdvm2020", n!"CallTypes"], [n!"Mmdvm2020", n!"CallTypes", n!"group_call"], [n!"Mmdvm2020", n!"CallTypes", n!"private_call"], [n!"Mmdvm2020", n!"PositionErrors"], [n!"Mmdvm2020", n!"PositionErrors", n!"less_than_2m"], [n!"Mmdvm2020", n!"PositionErrors", n!"less_than_20m"], [n!"Mmdvm2020", n!"PositionErrors", n!"less_than_200m"], [n!"Mmdvm2020", n!"PositionErrors", n!"less_than_2km"], [n!"Mmdvm2020", n!"PositionErrors", n!"less_than_20km"], [n!"Mmdvm2020", n!"PositionErrors", n!"less_than_or_equal_200km"], [n!"Mmdvm2020", n!"PositionErrors", n!"more_than_200km"], [n!"Mmdvm2020", n!"PositionErrors", n!"position_error_unknown_or_invalid"], [n!"Mmdvm2020", n!"Timeslots"], [n!"Mmdvm2020", n!"Timeslots", n!"timeslot_1"], [n!"Mmdvm2020", n!"Timeslots", n!"timeslot_2"], [n!"Mmdvm2020", n!"_read"], [n!"Mmdvm2020", n!"TypeMasterPong"], [n!"Mmdvm2020", n!"TypeMasterPong", n!"_read"], [n!"Mmdvm2020", n!"TypeRadioPosition"], [n!"Mmdvm2020", n!"TypeRadioPosition", n!"_read"], [n!"Mmdvm2020", n!"TypeTalkerAlias"], [n!"Mmdvm2020", n!"TypeTalkerAlias", n!"_read"], [n!"Mmdvm2020", n!"TypeRepeaterConfigurationOrClosing"], [n!"Mmdvm2020", n!"TypeRepeaterConfigurationOrClosing", n!"_read"], [n!"Mmdvm2020", n!"TypeRepeaterLoginResponse"], [n!"Mmdvm2020", n!"TypeRepeaterLoginResponse", n!"_read"], [n!"Mmdvm2020", n!"TypeRepeaterLoginRequest"], [n!"Mmdvm2020", n!"TypeRepeaterLoginRequest", n!"_read"], [n!"Mmdvm2020", n!"TypeMasterNotAccept"], [n!"Mmdvm2020", n!"TypeMasterNotAccept", n!"_read"], [n!"Mmdvm2020", n!"TypeUnknown"], [n!"Mmdvm2020", n!"TypeUnknown", n!"_read"], [n!"Mmdvm2020", n!"TypeMasterRepeaterAck"], [n!"Mmdvm2020", n!"TypeMasterRepeaterAck", n!"_read"], [n!"Mmdvm2020", n!"TypeMasterClosing"], [n!"Mmdvm2020", n!"TypeMasterClosing", n!"_read"], [n!"Mmdvm2020", n!"TypeDmrData"], [n!"Mmdvm2020", n!"TypeDmrData", n!"_read"], [n!"Mmdvm2020", n!"TypeRepeaterBeacon"], [n!"Mmdvm2020", n!"TypeRepeaterBeacon", n!"_read"], [n!"Mmdvm2020", n!"TypeRepeaterOptions"], [n!"Mmdvm2020", n!"TypeRepeaterOptions", n!"_read"], [n!"Mmdvm2020", n!"TypeRepeaterClosing"], [n!"Mmdvm2020", n!"TypeRepeaterClosing", n!"_read"], [n!"Mmdvm2020", n!"TypeRepeaterConfiguration"], [n!"Mmdvm2020", n!"TypeRepeaterConfiguration", n!"_read"], [n!"Mmdvm2020", n!"TypeRepeaterPing"], [n!"Mmdvm2020", n!"TypeRepeaterPing", n!"_read"], [n!"Mmdvm2020", n!"fifth_letter"]]]
  later := [(n!"Mmdvm2020", [n!"TypeRepeaterLoginRequest"]), (n!"Mmdvm2020", [n!"TypeRadioPosition"]), (n!"Mmdvm2020", [n!"TypeMasterRepeaterAck"]), (n!"Mmdvm2020", [n!"TypeRepeaterLoginResponse"]), (n!"Mmdvm2020", [n!"TypeRepeaterConfigurationOrClosing"]), (n!"Mmdvm2020", [n!"TypeDmrData"]), (n!"Mmdvm2020", [n!"TypeMasterClosing"]), (n!"Mmdvm2020", [n!"TypeRepeaterPing"]), (n!"Mmdvm2020", [n!"TypeRepeaterOptions"]), (n!"Mmdvm2020", [n!"TypeMasterPong"]), (n!"Mmdvm2020", [n!"TypeRepeaterBeacon"]), (n!"Mmdvm2020", [n!"TypeMasterNotAccept"]), (n!"Mmdvm2020", [n!"TypeTalkerAlias"]), (n!"kaitaistruct", [n!"ValidationNotEqualError"]), (n!"KaitaiStream", [n!"resolve_enum"]), (n!"Mmdvm2020", [n!"PositionErrors"]), (n!"Mmdvm2020", [n!"TalkerAliasTypes"]), (n!"Mmdvm2020", [n!"TypeRepeaterClosing"]), (n!"Mmdvm2020", [n!"TypeRepeaterConfiguration"]), (n!"Mmdvm2020", [n!"Timeslots"]), (n!"Mmdvm2020", [n!"CallTypes"]), (n!"Mmdvm2020", [n!"FrameTypes"]), (n!"hasattr", []), (n!"getattr", [])]

/-- /repo/okdmr/kaitai/hytera/__init__.py -/
def okdmr_kaitai_hytera : Module where
  name := n!"okdmr.kaitai.hytera"
  parent := some (n!"okdmr.kaitai", n!"hytera")
  body := []
  later := []

/-- /repo/okdmr/kaitai/hytera/radio_ip.py -/
def okdmr_kaitai_hytera_radio_ip : Module where
  name := n!"okdmr.kaitai.hytera.radio_ip"
  parent := some (n!"okdmr.kaitai.hytera", n!"radio_ip")
  body := [.import_ n!"kaitaistruct",
    .from_ n!"kaitaistruct" n!"KaitaiStruct",
    .from_ n!"kaitaistruct" n!"KaitaiStream",
    .from_ n!"kaitaistruct" n!"BytesIO",
    .check,
    .define n!"RadioIp"
      [(n!"KaitaiStruct", []), (n!"property", [])]
      [[n!"RadioIp"], [n!"RadioIp", n!"_read"], [n!"RadioIp", n!"radio_id"], [n!"RadioIp", n!"radio_ip"]]]
  later := [(n!"hasattr", []), (n!"getattr", []), (n!"str", [])]

/-- /repo/okdmr/kaitai/hytera/data_delivery_states.py -/
def okdmr_kaitai_hytera_data_delivery_states : Module where
  name := n!"okdmr.kaitai.hytera.data_delivery_states"
  parent := some (n!"okdmr.kaitai.hytera", n!"data_delivery_states")
  body := [.import_ n!"kaitaistruct",
    .from_ n!"kaitaistruct" n!"KaitaiStruct",
    .from_ n!"kaitaistruct" n!"KaitaiStream",
    .from_ n!"kaitaistruct" n!"BytesIO",
    .from_ n!"enum" n!"Enum",
    .check,
    .from_ n!"okdmr.kaitai.hytera" n!"radio_ip",
    .define n!"DataDeliveryStates"
      [(n!"KaitaiStruct", []), (n!"Enum", [])]
      [[n!"DataDeliveryStates"], [n!"DataDeliveryStates", n!"StateTypes"], [n!"DataDeliveryStates", n!"StateTypes", n!"location_protocol_state"], [n!"DataDeliveryStates", n!"StateTypes", n!"radio_registration_service_state"], [n!"DataDeliveryStates", n!"StateTypes", n!"telemetry_protocol_state"], [n!"DataDeliveryStates", n!"StateTypes", n!"data_transmit_protocol_state"], [n!"DataDeliveryStates", n!"Results"], [n!"DataDeliveryStates", n!"Results", n!"ok"], [n!"DataDeliveryStates", n!"Results", n!"fail"], [n!"DataDeliveryStates", n!"Results", n!"limited_timeout"], [n!"DataDeliveryStates", n!"Results", n!"no_ack"], [n!"DataDeliveryStates", n!"Results", n!"error_ack"], [n!"DataDeliveryStates", n!"Results", n!"repeater_wakeup_fail"], [n!"DataDeliveryStates", n!"Results", n!"tx_interrupted"], [n!"DataDeliveryStates", n!"Results", n!"tx_deny"], [n!"DataDeliveryStates", n!"Results", n!"invalid_params"], [n!"DataDeliveryStates", n!"_read"]]]
  later := [(n!"KaitaiStream", [n!"resolve_enum"]), (n!"DataDeliveryStates", [n!"StateTypes"]), (n!"radio_ip", [n!"RadioIp"]), (n!"DataDeliveryStates", [n!"Results"])]

/-- /repo/okdmr/kaitai/hytera/data_transmit_protocol.py -/
def okdmr_kaitai_hytera_data_transmit_protocol : Module where
  name := n!"okdmr.kaitai.hytera.data_transmit_protocol"
  parent := some (n!"okdmr.kaitai.hytera", n!"data_transmit_protocol")
  body := [.import_ n!"kaitaistruct",
    .from_ n!"kaitaistruct" n!"KaitaiStruct",
    .from_ n!"kaitaistruct" n!"KaitaiStream",
    .from_ n!"kaitaistruct" n!"BytesIO",
    .from_ n!"enum" n!"Enum",
    .check,
    .from_ n!"okdmr.kaitai.hytera" n!"radio_ip",
    .define n!"DataTransmitProtocol"
      [(n!"KaitaiStruct", []), (n!"Enum", [])]
      [[n!"DataTransmitProtocol"], [n!"DataTransmitProtocol", n!"ServiceTypes"], [n!"DataTransmitProtocol", n!"ServiceTypes", n!"data_transmit_protocol"], [n!"DataTransmitProtocol", n!"ServiceSpecificTypes"], [n!"DataTransmitProtocol", n!"ServiceSpecificTypes", n!"dtp_request"], [n!"DataTransmitProtocol", n!"ServiceSpecificTypes", n!"data_slice_transmit"], [n!"DataTransmitProtocol", n!"ServiceSpecificTypes", n!"last_data_slice"], [n!"DataTransmitProtocol", n!"ServiceSpecificTypes", n!"dtp_answer"], [n!"DataTransmitProtocol", n!"ServiceSpecificTypes", n!"data_slice_answer"], [n!"DataTransmitProtocol", n!"ServiceSpecificTypes", n!"last_data_slice_answer"], [n!"DataTransmitProtocol", n!"Results"], [n!"DataTransmitProtocol", n!"Results", n!"success"], [n!"DataTransmitProtocol", n!"Results", n!"failure"], [n!"DataTransmitProtocol", n!"_read"], [n!"DataTransmitProtocol", n!"LastDataSlice"], [n!"DataTransmitProtocol", n!"LastDataSlice", n!"_read"], [n!"DataTransmitProtocol", n!"DtpRequest"], [n!"DataTransmitProtocol", n!"DtpRequest", n!"_read"], [n!"DataTransmitProtocol", n!"DataSliceAnswer"], [n!"DataTransmitProtocol", n!"DataSliceAnswer", n!"_read"], [n!"DataTransmitProtocol", n!"DataSliceTransmit"], [n!"DataTransmitProtocol", n!"DataSliceTransmit", n!"_read"], [n!"DataTransmitProtocol", n!"LastDataSliceAnswer"], [n!"DataTransmitProtocol", n!"LastDataSliceAnswer", n!"_read"], [n!"DataTransmitProtocol", n!"DtpAnswer"], [n!"DataTransmitProtocol", n!"DtpAnswer", n!"_read"]]]
  later := [(n!"KaitaiStream", [n!"resolve_enum"]), (n!"DataTransmitProtocol", [n!"ServiceTypes"]), (n!"DataTransmitProtocol", [n!"ServiceSpecificTypes"]), (n!"DataTransmitProtocol", [n!"ServiceSpecificTypes", n!"dtp_request"]), (n!"DataTransmitProtocol", [n!"DtpRequest"]), (n!"DataTransmitProtocol", [n!"ServiceSpecificTypes", n!"data_slice_transmit"]), (n!"DataTransmitProtocol", [n!"DataSliceTransmit"]), (n!"DataTransmitProtocol", [n!"ServiceSpecificTypes", n!"data_slice_answer"]), (n!"DataTransmitProtocol", [n!"DataSliceAnswer"]), (n!"DataTransmitProtocol", [n!"ServiceSpecificTypes", n!"last_data_slice_answer"]), (n!"DataTransmitProtocol", [n!"LastDataSliceAnswer"]), (n!"DataTransmitProtocol", [n!"ServiceSpecificTypes", n!"dtp_answer"]), (n!"DataTransmitProtocol", [n!"DtpAnswer"]), (n!"DataTransmitProtocol", [n!"ServiceSpecificTypes", n!"last_data_slice"]), (n!"DataTransmitProtocol", [n!"LastDataSlice"]), (n!"radio_ip", [n!"RadioIp"]), (n!"DataTransmitProtocol", [n!"Results"])]

/-- /repo/okdmr/kaitai/hytera/datetimestring.py -/
def okdmr_kaitai_hytera_datetimestring : Module where
  name := n!"okdmr.kaitai.hytera.datetimestring"
  parent := some (n!"okdmr.kaitai.hytera", n!"datetimestring")
  body := [.import_ n!"kaitaistruct",
    .from_ n!"kaitaistruct" n!"KaitaiStruct",
    .from_ n!"kaitaistruct" n!"KaitaiStream",
    .from_ n!"kaitaistruct" n!"BytesIO",
    .check,
    .define n!"Datetimestring"
      [(n!"KaitaiStruct", [])]
      [[n!"Datetimestring"], [n!"Datetimestring", n!"_read"]]]
  later := []

/-- /repo/okdmr/kaitai/hytera/gpsdata.py -/
def okdmr_kaitai_hytera_gpsdata : Module where
  name := n!"okdmr.kaitai.hytera.gpsdata"
  parent := some (n!"okdmr.kaitai.hytera", n!"gpsdata")
  body := [.import_ n!"kaitaistruct",
    .from_ n!"kaitaistruct" n!"KaitaiStruct",
    .from_ n!"kaitaistruct" n!"KaitaiStream",
    .from_ n!"kaitaistruct" n!"BytesIO",
    .check,
    .define n!"Gpsdata"
      [(n!"KaitaiStruct", []), (n!"property", [])]
      [[n!"Gpsdata"], [n!"Gpsdata", n!"_read"], [n!"Gpsdata", n!"gps_available"]]]
  later := [(n!"hasattr", []), (n!"getattr", [])]

/-- /repo/okdmr/kaitai/hytera/radio_control_protocol.py -/
def okdmr_kaitai_hytera_radio_control_protocol : Module where
  name := n!"okdmr.kaitai.hytera.radio_control_protocol"
  parent := some (n!"okdmr.kaitai.hytera", n!"radio_control_protocol")
  body := [.import_ n!"kaitaistruct",
    .from_ n!"kaitaistruct" n!"KaitaiStruct",
    .from_ n!"kaitaistruct" n!"KaitaiStream",
    .from_ n!"kaitaistruct" n!"BytesIO",
    .from_ n!"enum" n!"Enum",
    .check,
    .define n!"RadioControlProtocol"
      [(n!"KaitaiStruct", []), (n!"Enum", [])]
      [[n!"RadioControlProtocol"], [n!"RadioControlProtocol", n!"ServiceTypes"], [n!"RadioControlProtocol", n!"ServiceTypes", n!"radio_identification_request"], [n!"RadioControlProtocol", n!"ServiceTypes", n!"button_and_keyboard_operation_request"], [n!"RadioControlProtocol", n!"ServiceTypes", n!"internal_external_mic_enable_disable_request"], [n!"RadioControlProtocol", n!"ServiceTypes", n!"internal_external_mic_gain_check_control_request"], [n!"RadioControlProtocol", n!"ServiceTypes", n!"internal_external_speaker_enable_disable_request"], [n!"RadioControlProtocol", n!"ServiceTypes", n!"volume_check_control_request"], [n!"RadioControlProtocol", n!"ServiceTypes", n!"radio_configure_over_air_request"], [n!"RadioControlProtocol", n!"ServiceTypes", n!"zone_and_channel_operation_request"], [n!"RadioControlProtocol", n!"ServiceTypes", n!"radio_connect_login_request"], [n!"RadioControlProtocol", n!"ServiceTypes", n!"radio_connect_logout_request"], [n!"RadioControlProtocol", n!"ServiceTypes", n!"channel_status_or_param_check_request"], [n!"RadioControlProtocol", n!"ServiceTypes", n!"function_status_check_request"], [n!"RadioControlProtocol", n!"ServiceTypes", n!"function_enable_disable_request"], [n!"RadioControlProtocol", n!"ServiceTypes", n!"channel_alias_request"], [n!"RadioControlProtocol", n!"ServiceTypes", n!"radio_message_query_request"], [n!"RadioControlProtocol", n!"ServiceTypes", n!"channel_number_of_zone_request"], [n!"RadioControlProtocol", n!"ServiceTypes", n!"update_authentication_key_request"], [n!"RadioControlProtocol", n!"ServiceTypes", n!"radio_id_and_radio_ip_query_request"], [n!"RadioControlProtocol", n!"ServiceTypes", n!"radio_check"], [n!"RadioControlProtocol", n!"ServiceTypes", n!"remote_monitor"], [n!"RadioControlProtocol", n!"ServiceTypes", n!"allert_call"], [n!"RadioControlProtocol", n!"ServiceTypes", n!"call_request"], [n!"RadioControlProtocol", n!"ServiceTypes", n!"remove_radio_request"], [n!"RadioControlProtocol", n!"ServiceTypes", n!"delete_subject_line_message_request"], [n!"RadioControlProtocol", n!"ServiceTypes", n!"radio_disable"], [n!"RadioControlProtocol", n!"ServiceTypes", n!"radio_enable"], [n!"RadioControlProtocol", n!"ServiceTypes", n!"radio_status_configure_request"], [n!"RadioControlProtocol", n!"ServiceTypes", n!"broadcast_status_configuration_request"], [n!"RadioControlProtocol", n!"ServiceTypes", n!"button_and_keyboard_operation_reply"], [n!"RadioControlProtocol", n!"ServiceTypes", n!"internal_external_mic_enable_disable_reply"], [n!"RadioControlProtocol", n!"ServiceTypes", n!"internal_external_mic_gain_check_control_reply"], [n!"RadioControlProtocol", n!"ServiceTypes", n!"internal_external_speaker_enable_disable_reply"], [n!"RadioControlProtocol", n!"ServiceTypes", n!"volume_check_control_reply"], [n!"RadioControlProtocol", n!"ServiceTypes", n!"radio_configure_over_air_reply"], [n!"RadioControlProtocol", n!"ServiceTypes", n!"zone_and_channel_operation_reply"], [n!"RadioControlProtocol", n!"ServiceTypes", n!"radio_status_configure_reply"], [n!"RadioControlProtocol", n!"ServiceTypes", n!"broadcast_status_configuration_reply"], [n!"RadioControlProtocol", n!"ServiceTypes", n!"radio_connect_login_reply"], [n!"RadioControlProtocol", n!"ServiceTypes", n!"radio_connect_logout_reply"], [n!"RadioControlProtocol", n!"ServiceTypes", n!"channel_status_or_param_check_reply"], [n!"RadioControlProtocol", n!"ServiceTypes", n!"function_status_check_reply"], [n!"RadioControlProtocol", n!"ServiceTypes", n!"function_enable_disable_reply"], [n!"RadioControlProtocol", n!"ServiceTypes", n!"channel_alias_reply"], [n!"RadioControlProtocol", n!"ServiceTypes", n!"radio_message_query_reply"], [n!"RadioControlProtocol", n!"ServiceTypes", n!"radio_identification_reply"], [n!"RadioControlProtocol", n!"ServiceTypes", n!"channel_number_of_zone_reply"], [n!"RadioControlProtocol", n!"ServiceTypes", n!"update_authentication_key_reply"], [n!"RadioControlProtocol", n!"ServiceTypes", n!"radio_id_and_radio_ip_query_reply"], [n!"RadioControlProtocol", n!"ServiceTypes", n!"radio_check_ack"], [n!"RadioControlProtocol", n!"ServiceTypes", n!"remote_monitor_ack"], [n!"RadioControlProtocol", n!"ServiceTypes", n!"alert_call_ack"], [n!"RadioControlProtocol", n!"ServiceTypes", n!"call_reply"], [n!"RadioControlProtocol", n!"ServiceTypes", n!"remove_radio_reply"], [n!"RadioControlProtocol", n!"ServiceTypes", n!"delete_subject_line_message_reply"], [n!"RadioControlProtocol", n!"ServiceTypes", n!"radio_disable_ack"], [n!"RadioControlProtocol", n!"ServiceTypes", n!"radio_enable_ack"], [n!"RadioControlProtocol", n!"ServiceTypes", n!"radio_status_report"], [n!"RadioControlProtocol", n!"ServiceTypes", n!"broadcast_transmit_status"], [n!"RadioControlProtocol", n!"ServiceTypes", n!"repeater_broadcast_transmit_status"], [n!"RadioControlProtocol", n!"ServiceTypes", n!"broadcast_receive_status"], [n!"RadioControlProtocol", n!"CallTypes"], [n!"RadioControlProtocol", n!"CallTypes", n!"private_call"], [n!"RadioControlProtocol", n!"CallTypes", n!"group_call"], [n!"RadioControlProtocol", n!"CallTypes", n!"all_call"], [n!"RadioControlProtocol", n!"CallTypes", n!"emergency_group_call"], [n!"RadioControlProtocol", n!"CallTypes", n!"remote_monitor_call"], [n!"RadioControlProtocol", n!"CallTypes", n!"reserved"], [n!"RadioControlProtocol", n!"CallTypes", n!"priority_private_call"], [n!"RadioControlProtocol", n!"CallTypes", n!"priority_group_call"], [n!"RadioControlProtocol", n!"CallTypes", n!"priority_all_call"], [n!"RadioControlProtocol", n!"ReplyResults"], [n!"RadioControlProtocol", n!"ReplyResults", n!"success"], [n!"RadioControlProtocol", n!"ReplyResults", n!"failure"], [n!"RadioControlProtocol", n!"_read"], [n!"RadioControlProtocol", n!"BroadcastStatusConfigurationReply"], [n!"RadioControlProtocol", n!"BroadcastStatusConfigurationReply", n!"_read"], [n!"RadioControlProtocol", n!"BroadcastConfiguration"], [n!"RadioControlProtocol", n!"BroadcastConfiguration", n!"_read"], [n!"RadioControlProtocol", n!"BroadcastStatusConfigurationRequest"], [n!"RadioControlProtocol", n!"BroadcastStatusConfigurationRequest", n!"_read"], [n!"RadioControlProtocol", n!"RadioIdentificationReply"], [n!"RadioControlProtocol", n!"RadioIdentificationReply", n!"_read"], [n!"RadioControlProtocol", n!"GenericData"], [n!"RadioControlProtocol", n!"GenericData", n!"_read"], [n!"RadioControlProtocol", n!"CallRequest"], [n!"RadioControlProtocol", n!"CallRequest", n!"_read"], [n!"RadioControlProtocol", n!"RemoveRadioReply"], [n!"RadioControlProtocol", n!"RemoveRadioReply", n!"_read"], [n!"RadioControlProtocol", n!"RemoveRadioRequest"], [n!"RadioControlProtocol", n!"RemoveRadioRequest", n!"_read"], [n!"RadioControlProtocol", n!"CallReply"], [n!"RadioControlProtocol", n!"CallReply", n!"_read"]]]
  later := [(n!"KaitaiStream", [n!"resolve_enum"]), (n!"RadioControlProtocol", [n!"ServiceTypes"]), (n!"RadioControlProtocol", [n!"ServiceTypes", n!"call_reply"]), (n!"RadioControlProtocol", [n!"CallReply"]), (n!"RadioControlProtocol", [n!"ServiceTypes", n!"radio_identification_reply"]), (n!"RadioControlProtocol", [n!"RadioIdentificationReply"]), (n!"RadioControlProtocol", [n!"ServiceTypes", n!"broadcast_status_configuration_request"]), (n!"RadioControlProtocol", [n!"BroadcastStatusConfigurationRequest"]), (n!"RadioControlProtocol", [n!"ServiceTypes", n!"call_request"]), (n!"RadioControlProtocol", [n!"CallRequest"]), (n!"RadioControlProtocol", [n!"ServiceTypes", n!"remove_radio_request"]), (n!"RadioControlProtocol", [n!"RemoveRadioRequest"]), (n!"RadioControlProtocol", [n!"ServiceTypes", n!"broadcast_status_configuration_reply"]), (n!"RadioControlProtocol", [n!"BroadcastStatusConfigurationReply"]), (n!"RadioControlProtocol", [n!"ServiceTypes", n!"remove_radio_reply"]), (n!"RadioControlProtocol", [n!"RemoveRadioReply"]), (n!"RadioControlProtocol", [n!"GenericData"]), (n!"RadioControlProtocol", [n!"ReplyResults"]), (n!"range", []), (n!"RadioControlProtocol", [n!"BroadcastConfiguration"]), (n!"RadioControlProtocol", [n!"CallTypes"])]

/-- /repo/okdmr/kaitai/hytera/telemetry_protocol.py -/
def okdmr_kaitai_hytera_telemetry_protocol : Module where
  name := n!"okdmr.kaitai.hytera.telemetry_protocol"
  parent := some (n!"okdmr.kaitai.hytera", n!"telemetry_protocol")
  body := [.import_ n!"kaitaistruct",
    .from_ n!"kaitaistruct" n!"KaitaiStruct",
    .from_ n!"kaitaistruct" n!"KaitaiStream",
    .from_ n!"kaitaistruct" n!"BytesIO",
    .from_ n!"enum" n!"Enum",
    .check,
    .from_ n!"okdmr.kaitai.hytera" n!"radio_ip",
    .define n!"TelemetryProtocol"
      [(n!"KaitaiStruct", []), (n!"Enum", []), (n!"property", [])]
      [[n!"TelemetryProtocol"], [n!"TelemetryProtocol", n!"ServiceTypes"], [n!"TelemetryProtocol", n!"ServiceTypes", n!"status_report_service"], [n!"TelemetryProtocol", n!"ServiceTypes", n!"remote_control_service"], [n!"TelemetryProtocol", n!"ResultTypes"], [n!"TelemetryProtocol", n!"ResultTypes", n!"effective"], [n!"TelemetryProtocol", n!"ResultTypes", n!"ineffective"], [n!"TelemetryProtocol", n!"CallTypes"], [n!"TelemetryProtocol", n!"CallTypes", n!"private_call"], [n!"TelemetryProtocol", n!"CallTypes", n!"group_call"], [n!"TelemetryProtocol", n!"CallTypes", n!"all_call"], [n!"TelemetryProtocol", n!"OperationTypes"], [n!"TelemetryProtocol", n!"OperationTypes", n!"set_ineffective_level"], [n!"TelemetryProtocol", n!"OperationTypes", n!"set_effective_level"], [n!"TelemetryProtocol", n!"OperationTypes", n!"reverse_level"], [n!"TelemetryProtocol", n!"OperationTypes", n!"output_one_pulse"], [n!"TelemetryProtocol", n!"PcFlagTypes"], [n!"TelemetryProtocol", n!"PcFlagTypes", n!"controller_is_radio"], [n!"TelemetryProtocol", n!"PcFlagTypes", n!"controller_is_telemetry_application"], [n!"TelemetryProtocol", n!"ServiceSpecificTypes"], [n!"TelemetryProtocol", n!"ServiceSpecificTypes", n!"standard_status_request"], [n!"TelemetryProtocol", n!"ServiceSpecificTypes", n!"standard_status_report"], [n!"TelemetryProtocol", n!"ServiceSpecificTypes", n!"extended_status_report"], [n!"TelemetryProtocol", n!"ServiceSpecificTypes", n!"remote_control_request"], [n!"TelemetryProtocol", n!"ServiceSpecificTypes", n!"remote_control_answer"], [n!"TelemetryProtocol", n!"ControlResultTypes"], [n!"TelemetryProtocol", n!"ControlResultTypes", n!"success"], [n!"TelemetryProtocol", n!"ControlResultTypes", n!"failure"], [n!"TelemetryProtocol", n!"_read"], [n!"TelemetryProtocol", n!"StandardStatusReport"], [n!"TelemetryProtocol", n!"StandardStatusReport", n!"_read"], [n!"TelemetryProtocol", n!"VioExtendedStatus"], [n!"TelemetryProtocol", n!"VioExtendedStatus", n!"_read"], [n!"TelemetryProtocol", n!"RemoteControlAnswer"], [n!"TelemetryProtocol", n!"RemoteControlAnswer", n!"_read"], [n!"TelemetryProtocol", n!"RemoteControlRequest"], [n!"TelemetryProtocol", n!"RemoteControlRequest", n!"_read"], [n!"TelemetryProtocol", n!"ExtendedStatusReport"], [n!"TelemetryProtocol", n!"ExtendedStatusReport", n!"_read"], [n!"TelemetryProtocol", n!"StandardStatusRequest"], [n!"TelemetryProtocol", n!"StandardStatusRequest", n!"_read"], [n!"TelemetryProtocol", n!"specific_service"]]]
  later := [(n!"KaitaiStream", [n!"resolve_enum"]), (n!"TelemetryProtocol", [n!"ServiceTypes"]), (n!"TelemetryProtocol", [n!"ServiceSpecificTypes", n!"standard_status_request"]), (n!"TelemetryProtocol", [n!"StandardStatusRequest"]), (n!"TelemetryProtocol", [n!"ServiceSpecificTypes", n!"remote_control_answer"]), (n!"TelemetryProtocol", [n!"RemoteControlAnswer"]), (n!"TelemetryProtocol", [n!"ServiceSpecificTypes", n!"extended_status_report"]), (n!"TelemetryProtocol", [n!"ExtendedStatusReport"]), (n!"TelemetryProtocol", [n!"ServiceSpecificTypes", n!"remote_control_request"]), (n!"TelemetryProtocol", [n!"RemoteControlRequest"]), (n!"TelemetryProtocol", [n!"ServiceSpecificTypes", n!"standard_status_report"]), (n!"TelemetryProtocol", [n!"StandardStatusReport"]), (n!"radio_ip", [n!"RadioIp"]), (n!"TelemetryProtocol", [n!"PcFlagTypes"]), (n!"TelemetryProtocol", [n!"CallTypes"]), (n!"TelemetryProtocol", [n!"ResultTypes"]), (n!"TelemetryProtocol", [n!"ControlResultTypes"]), (n!"TelemetryProtocol", [n!"OperationTypes"]), (n!"TelemetryProtocol", [n!"VioExtendedStatus"]), (n!"hasattr", []), (n!"TelemetryProtocol", [n!"ServiceSpecificTypes"]), (n!"getattr", [])]

/-- /repo/okdmr/kaitai/hytera/intervalstring.py -/
def okdmr_kaitai_hytera_intervalstring : Module where
  name := n!"okdmr.kaitai.hytera.intervalstring"
  parent := some (n!"okdmr.kaitai.hytera", n!"intervalstring")
  body := [.import_ n!"kaitaistruct",
    .from_ n!"kaitaistruct" n!"KaitaiStruct",
    .from_ n!"kaitaistruct" n!"KaitaiStream",
    .from_ n!"kaitaistruct" n!"BytesIO",
    .check,
    .define n!"Intervalstring"
      [(n!"KaitaiStruct", [])]
      [[n!"Intervalstring"], [n!"Intervalstring", n!"_read"]]]
  later := []

/-- /repo/okdmr/kaitai/hytera/location_protocol.py -/
def okdmr_kaitai_hytera_location_protocol : Module where
  name := n!"okdmr.kaitai.hytera.location_protocol"
  parent := some (n!"okdmr.kaitai.hytera", n!"location_protocol")
  body := [.import_ n!"kaitaistruct",
    .from_ n!"kaitaistruct" n!"KaitaiStruct",
    .from_ n!"kaitaistruct" n!"KaitaiStream",
    .from_ n!"kaitaistruct" n!"BytesIO",
    .from_ n!"enum" n!"Enum",
    .check,
    .from_ n!"okdmr.kaitai.hytera" n!"radio_ip",
    .from_ n!"okdmr.kaitai.hytera" n!"gpsdata",
    .from_ n!"okdmr.kaitai.hytera" n!"datetimestring",
    .from_ n!"okdmr.kaitai.hytera" n!"intervalstring",
    .define n!"LocationProtocol"
      [(n!"KaitaiStruct", []), (n!"Enum", []), (n!"property", [])]
      [[n!"LocationProtocol"], [n!"LocationProtocol", n!"CmdTypes"], [n!"LocationProtocol", n!"CmdTypes", n!"cancel_request"], [n!"LocationProtocol", n!"CmdTypes", n!"start_request"], [n!"LocationProtocol", n!"LpSpecificTypes"], [n!"LocationProtocol", n!"LpSpecificTypes", n!"standard_request"], [n!"LocationProtocol", n!"LpSpecificTypes", n!"standard_answer"], [n!"LocationProtocol", n!"LpSpecificTypes", n!"standard_answer_with_rssi"], [n!"LocationProtocol", n!"LpSpecificTypes", n!"standard_answer_gps_bt"], [n!"LocationProtocol", n!"LpSpecificTypes", n!"emergency_report_stop_request"], [n!"LocationProtocol", n!"LpSpecificTypes", n!"emergency_report_stop_answer"], [n!"LocationProtocol", n!"LpSpecificTypes", n!"emergency_report"], [n!"LocationProtocol", n!"LpSpecificTypes", n!"triggered_report_request"], [n!"LocationProtocol", n!"LpSpecificTypes", n!"triggered_report_answer"], [n!"LocationProtocol", n!"LpSpecificTypes", n!"triggered_report"], [n!"LocationProtocol", n!"LpSpecificTypes", n!"triggered_report_stop_request"], [n!"LocationProtocol", n!"LpSpecificTypes", n!"triggered_report_stop_answer"], [n!"LocationProtocol", n!"LpSpecificTypes", n!"condition_report_request"], [n!"LocationProtocol", n!"LpSpecificTypes", n!"condition_report_answer"], [n!"LocationProtocol", n!"LpSpecificTypes", n!"condition_report"], [n!"LocationProtocol", n!"LpSpecificTypes", n!"condition_report_with_rssi"], [n!"LocationProtocol", n!"LpSpecificTypes", n!"condition_quick_gps_request"], [n!"LocationProtocol", n!"LpSpecificTypes", n!"condition_quick_gps_answer"], [n!"LocationProtocol", n!"LpGeneralTypes"], [n!"LocationProtocol", n!"LpGeneralTypes", n!"standard_location_immediate_service"], [n!"LocationProtocol", n!"LpGeneralTypes", n!"emergency_location_reporting_service"], [n!"LocationProtocol", n!"LpGeneralTypes", n!"triggered_location_reporting_service"], [n!"LocationProtocol", n!"LpGeneralTypes", n!"condition_triggered_reporting_service"], [n!"LocationProtocol", n!"LpGeneralTypes", n!"rssi_report_configuring_service"], [n!"LocationProtocol", n!"TriggerTypes"], [n!"LocationProtocol", n!"TriggerTypes", n!"cancel_request"], [n!"LocationProtocol", n!"TriggerTypes", n!"distance"], [n!"LocationProtocol", n!"TriggerTypes", n!"time"], [n!"LocationProtocol", n!"TriggerTypes", n!"distance_and_time"], [n!"LocationProtocol", n!"TriggerTypes", n!"distance_or_time"], [n!"LocationProtocol", n!"ResultCodes"], [n!"LocationProtocol", n!"ResultCodes", n!"ok"], [n!"LocationProtocol", n!"ResultCodes", n!"position_method_failure"], [n!"LocationProtocol", n!"ResultCodes", n!"request_format_error"], [n!"LocationProtocol", n!"_read"], [n!"LocationProtocol", n!"TriggeredReportStopAnswer"], [n!"LocationProtocol", n!"TriggeredReportStopAnswer", n!"_read"], [n!"LocationProtocol", n!"ConditionReportRequest"], [n!"LocationProtocol", n!"ConditionReportRequest", n!"_read"], [n!"LocationProtocol", n!"ConditionQuickGpsRequest"], [n!"LocationProtocol", n!"ConditionQuickGpsRequest", n!"_read"], [n!"LocationProtocol", n!"ConditionReport"], [n!"LocationProtocol", n!"ConditionReport", n!"_read"], [n!"LocationProtocol", n!"EmergencyReport"], [n!"LocationProtocol", n!"EmergencyReport", n!"_read"], [n!"LocationProtocol", n!"TriggeredReportAnswer"], [n!"LocationProtocol", n!"TriggeredReportAnswer", n!"_read"], [n!"LocationProtocol", n!"StandardAnswerWithRssi"], [n!"LocationProtocol", n!"StandardAnswerWithRssi", n!"_read"], [n!"LocationProtocol", n!"QuickGpsPayload"], [n!"LocationProtocol", n!"QuickGpsPayload", n!"_read"], [n!"LocationProtocol", n!"StandardRequest"], [n!"LocationProtocol", n!"StandardRequest", n!"_read"], [n!"LocationProtocol", n!"TriggeredReportRequest"], [n!"LocationProtocol", n!"TriggeredReportRequest", n!"_read"], [n!"LocationProtocol", n!"StandardAnswer"], [n!"LocationProtocol", n!"StandardAnswer", n!"_read"], [n!"LocationProtocol", n!"ConditionReportAnswer"], [n!"LocationProtocol", n!"ConditionReportAnswer", n!"_read"], [n!"LocationProtocol", n!"EmergencyReportStopRequest"], [n!"LocationProtocol", n!"EmergencyReportStopRequest", n!"_read"], [n!"LocationProtocol", n!"ConditionQuickGpsAnswer"], [n!"LocationProtocol", n!"ConditionQuickGpsAnswer", n!"_read"], [n!"LocationProtocol", n!"TriggeredReport"], [n!"LocationProtocol", n!"TriggeredReport", n!"_read"], [n!"LocationProtocol", n!"ConditionReportWithRssi"], [n!"LocationProtocol", n!"ConditionReportWithRssi", n!"_read"], [n!"LocationProtocol", n!"EmergencyReportStopAnswer"], [n!"LocationProtocol", n!"EmergencyReportStopAnswer", n!"_read"], [n!"LocationProtocol", n!"TriggeredReportStopRequest"], [n!"LocationProtocol", n!"TriggeredReportStopRequest", n!"_read"], [n!"LocationProtocol", n!"opcode"]]]
  later := [(n!"KaitaiStream", [n!"resolve_enum"]), (n!"LocationProtocol", [n!"LpSpecificTypes"]), (n!"LocationProtocol", [n!"LpSpecificTypes", n!"triggered_report_answer"]), (n!"LocationProtocol", [n!"TriggeredReportAnswer"]), (n!"LocationProtocol", [n!"LpSpecificTypes", n!"emergency_report_stop_request"]), (n!"LocationProtocol", [n!"EmergencyReportStopRequest"]), (n!"LocationProtocol", [n!"LpSpecificTypes", n!"condition_quick_gps_request"]), (n!"LocationProtocol", [n!"ConditionQuickGpsRequest"]), (n!"LocationProtocol", [n!"LpSpecificTypes", n!"condition_report"]), (n!"LocationProtocol", [n!"ConditionReport"]), (n!"LocationProtocol", [n!"LpSpecificTypes", n!"emergency_report_stop_answer"]), (n!"LocationProtocol", [n!"EmergencyReportStopAnswer"]), (n!"LocationProtocol", [n!"LpSpecificTypes", n!"condition_report_answer"]), (n!"LocationProtocol", [n!"ConditionReportAnswer"]), (n!"LocationProtocol", [n!"LpSpecificTypes", n!"standard_answer"]), (n!"LocationProtocol", [n!"StandardAnswer"]), (n!"LocationProtocol", [n!"LpSpecificTypes", n!"standard_request"]), (n!"LocationProtocol", [n!"StandardRequest"]), (n!"LocationProtocol", [n!"LpSpecificTypes", n!"triggered_report"]), (n!"LocationProtocol", [n!"TriggeredReport"]), (n!"LocationProtocol", [n!"LpSpecificTypes", n!"triggered_report_stop_answer"]), (n!"LocationProtocol", [n!"TriggeredReportStopAnswer"]), (n!"LocationProtocol", [n!"LpSpecificTypes", n!"standard_answer_with_rssi"]), (n!"LocationProtocol", [n!"StandardAnswerWithRssi"]), (n!"LocationProtocol", [n!"LpSpecificTypes", n!"condition_report_with_rssi"]), (n!"LocationProtocol", [n!"ConditionReportWithRssi"]), (n!"LocationProtocol", [n!"LpSpecificTypes", n!"triggered_report_stop_request"]), (n!"LocationProtocol", [n!"TriggeredReportStopRequest"]), (n!"LocationProtocol", [n!"LpSpecificTypes", n!"emergency_report"]), (n!"LocationProtocol", [n!"EmergencyReport"]), (n!"LocationProtocol", [n!"LpSpecificTypes", n!"condition_report_request"]), (n!"LocationProtocol", [n!"ConditionReportRequest"]), (n!"LocationProtocol", [n!"LpSpecificTypes", n!"triggered_report_request"]), (n!"LocationProtocol", [n!"TriggeredReportRequest"]), (n!"LocationProtocol", [n!"LpSpecificTypes", n!"condition_quick_gps_answer"]), (n!"LocationProtocol", [n!"ConditionQuickGpsAnswer"]), (n!"radio_ip", [n!"RadioIp"]), (n!"LocationProtocol", [n!"ResultCodes"]), (n!"datetimestring", [n!"Datetimestring"]), (n!"intervalstring", [n!"Intervalstring"]), (n!"LocationProtocol", [n!"CmdTypes"]), (n!"LocationProtocol", [n!"CmdTypes", n!"start_request"]), (n!"LocationProtocol", [n!"QuickGpsPayload"]), (n!"gpsdata", [n!"Gpsdata"]), (n!"LocationProtocol", [n!"TriggerTypes"]), (n!"hasattr", []), (n!"LocationProtocol", [n!"LpGeneralTypes"]), (n!"getattr", [])]

/-- /repo/okdmr/kaitai/hytera/text_message_protocol.py -/
def okdmr_kaitai_hytera_text_message_protocol : Module where
  name := n!"okdmr.kaitai.hytera.text_message_protocol"
  parent := some (n!"okdmr.kaitai.hytera", n!"text_message_protocol")
  body := [.import_ n!"kaitaistruct",
    .from_ n!"kaitaistruct" n!"KaitaiStruct",
    .from_ n!"kaitaistruct" n!"KaitaiStream",
    .from_ n!"kaitaistruct" n!"BytesIO",
    .from_ n!"enum" n!"Enum",
    .check,
    .from_ n!"okdmr.kaitai.hytera" n!"radio_ip",
    .define n!"TextMessageProtocol"
      [(n!"KaitaiStruct", []), (n!"Enum", []), (n!"property", [])]
      [[n!"TextMessageProtocol"], [n!"TextMessageProtocol", n!"AckFlags"], [n!"TextMessageProtocol", n!"AckFlags", n!"ack_required"], [n!"TextMessageProtocol", n!"AckFlags", n!"ack_not_required"], [n!"TextMessageProtocol", n!"OptionFlags"], [n!"TextMessageProtocol", n!"OptionFlags", n!"option_len_and_field_disabled"], [n!"TextMessageProtocol", n!"OptionFlags", n!"option_len_and_field_enabled"], [n!"TextMessageProtocol", n!"ServiceTypes"], [n!"TextMessageProtocol", n!"ServiceTypes", n!"send_private_message"], [n!"TextMessageProtocol", n!"ServiceTypes", n!"send_private_message_ack"], [n!"TextMessageProtocol", n!"ServiceTypes", n!"send_group_message"], [n!"TextMessageProtocol", n!"ServiceTypes", n!"send_group_message_ack"], [n!"TextMessageProtocol", n!"ResultCodes"], [n!"TextMessageProtocol", n!"ResultCodes", n!"ok"], [n!"TextMessageProtocol", n!"ResultCodes", n!"fail"], [n!"TextMessageProtocol", n!"ResultCodes", n!"invalid_params"], [n!"TextMessageProtocol", n!"ResultCodes", n!"channel_busy"], [n!"TextMessageProtocol", n!"ResultCodes", n!"rx_only"], [n!"TextMessageProtocol", n!"ResultCodes", n!"low_battery"], [n!"TextMessageProtocol", n!"ResultCodes", n!"pll_unlock"], [n!"TextMessageProtocol", n!"ResultCodes", n!"private_call_no_ack"], [n!"TextMessageProtocol", n!"ResultCodes", n!"repeater_wakeup_fail"], [n!"TextMessageProtocol", n!"ResultCodes", n!"no_contact"], [n!"TextMessageProtocol", n!"ResultCodes", n!"tx_deny"], [n!"TextMessageProtocol", n!"ResultCodes", n!"tx_interrupted"], [n!"TextMessageProtocol", n!"_read"], [n!"TextMessageProtocol", n!"option_sum_len"]]]
  later := [(n!"KaitaiStream", [n!"resolve_enum"]), (n!"TextMessageProtocol", [n!"AckFlags"]), (n!"TextMessageProtocol", [n!"OptionFlags"]), (n!"TextMessageProtocol", [n!"ServiceTypes"]), (n!"radio_ip", [n!"RadioIp"]), (n!"TextMessageProtocol", [n!"ServiceTypes", n!"send_group_message_ack"]), (n!"TextMessageProtocol", [n!"ServiceTypes", n!"send_private_message_ack"]), (n!"TextMessageProtocol", [n!"ResultCodes"]), (n!"TextMessageProtocol", [n!"ServiceTypes", n!"send_private_message"]), (n!"TextMessageProtocol", [n!"ServiceTypes", n!"send_group_message"]), (n!"hasattr", []), (n!"getattr", [])]

/-- /repo/okdmr/kaitai/hytera/radio_registration_service.py -/
def okdmr_kaitai_hytera_radio_registration_service : Module where
  name := n!"okdmr.kaitai.hytera.radio_registration_service"
  parent := some (n!"okdmr.kaitai.hytera", n!"radio_registration_service")
  body := [.import_ n!"kaitaistruct",
    .from_ n!"kaitaistruct" n!"KaitaiStruct",
    .from_ n!"kaitaistruct" n!"KaitaiStream",
    .from_ n!"kaitaistruct" n!"BytesIO",
    .from_ n!"enum" n!"Enum",
    .check,
    .from_ n!"okdmr.kaitai.hytera" n!"radio_ip",
    .define n!"RadioRegistrationService"
      [(n!"KaitaiStruct", []), (n!"Enum", [])]
      [[n!"RadioRegistrationService"], [n!"RadioRegistrationService", n!"RrsTypes"], [n!"RadioRegistrationService", n!"RrsTypes", n!"de_registration"], [n!"RadioRegistrationService", n!"RrsTypes", n!"online_check"], [n!"RadioRegistrationService", n!"RrsTypes", n!"registration"], [n!"RadioRegistrationService", n!"RrsTypes", n!"registration_ack"], [n!"RadioRegistrationService", n!"RrsTypes", n!"online_check_ack"], [n!"RadioRegistrationService", n!"_read"]]]
  later := [(n!"kaitaistruct", [n!"ValidationNotEqualError"]), (n!"KaitaiStream", [n!"resolve_enum"]), (n!"RadioRegistrationService", [n!"RrsTypes"]), (n!"radio_ip", [n!"RadioIp"]), (n!"RadioRegistrationService", [n!"RrsTypes", n!"registration_ack"]), (n!"RadioRegistrationService", [n!"RrsTypes", n!"online_check_ack"])]

/-- /repo/okdmr/kaitai/hytera/hytera_dmr_application_protocol.py -/
def okdmr_kaitai_hytera_hytera_dmr_application_protocol : Module where
  name := n!"okdmr.kaitai.hytera.hytera_dmr_application_protocol"
  parent := some (n!"okdmr.kaitai.hytera", n!"hytera_dmr_application_protocol")
  body := [.import_ n!"kaitaistruct",
    .from_ n!"kaitaistruct" n!"KaitaiStruct",
    .from_ n!"kaitaistruct" n!"KaitaiStream",
    .from_ n!"kaitaistruct" n!"BytesIO",
    .from_ n!"enum" n!"Enum",
    .check,
    .from_ n!"okdmr.kaitai.hytera" n!"data_transmit_protocol",
    .from_ n!"okdmr.kaitai.hytera" n!"radio_control_protocol",
    .from_ n!"okdmr.kaitai.hytera" n!"telemetry_protocol",
    .from_ n!"okdmr.kaitai.hytera" n!"location_protocol",
    .from_ n!"okdmr.kaitai.hytera" n!"text_message_protocol",
    .from_ n!"okdmr.kaitai.hytera" n!"data_delivery_states",
    .from_ n!"okdmr.kaitai.hytera" n!"radio_registration_service",
    .define n!"HyteraDmrApplicationProtocol"
      [(n!"KaitaiStruct", []), (n!"Enum", [])]
      [[n!"HyteraDmrApplicationProtocol"], [n!"HyteraDmrApplicationProtocol", n!"MessageHeaderTypes"], [n!"HyteraDmrApplicationProtocol", n!"MessageHeaderTypes", n!"radio_control_protocol"], [n!"HyteraDmrApplicationProtocol", n!"MessageHeaderTypes", n!"location_protocol"], [n!"HyteraDmrApplicationProtocol", n!"MessageHeaderTypes", n!"text_message_protocol"], [n!"HyteraDmrApplicationProtocol", n!"MessageHeaderTypes", n!"radio_registration"], [n!"HyteraDmrApplicationProtocol", n!"MessageHeaderTypes", n!"telemetry_protocol"], [n!"HyteraDmrApplicationProtocol", n!"MessageHeaderTypes", n!"data_transmit_protocol"], [n!"HyteraDmrApplicationProtocol", n!"MessageHeaderTypes", n!"data_delivery_states"], [n!"HyteraDmrApplicationProtocol", n!"_read"], [n!"HyteraDmrApplicationProtocol", n!"UndefinedProtocol"], [n!"HyteraDmrApplicationProtocol", n!"UndefinedProtocol", n!"_read"]]]
  later := [(n!"KaitaiStream", [n!"resolve_enum"]), (n!"HyteraDmrApplicationProtocol", [n!"MessageHeaderTypes"]), (n!"HyteraDmrApplicationProtocol", [n!"MessageHeaderTypes", n!"radio_registration"]), (n!"radio_registration_service", [n!"RadioRegistrationService"]), (n!"HyteraDmrApplicationProtocol", [n!"MessageHeaderTypes", n!"telemetry_protocol"]), (n!"telemetry_protocol", [n!"TelemetryProtocol"]), (n!"HyteraDmrApplicationProtocol", [n!"MessageHeaderTypes", n!"radio_control_protocol"]), (n!"radio_control_protocol", [n!"RadioControlProtocol"]), (n!"HyteraDmrApplicationProtocol", [n!"MessageHeaderTypes", n!"text_message_protocol"]), (n!"text_message_protocol", [n!"TextMessageProtocol"]), (n!"HyteraDmrApplicationProtocol", [n!"MessageHeaderTypes", n!"data_delivery_states"]), (n!"data_delivery_states", [n!"DataDeliveryStates"]), (n!"HyteraDmrApplicationProtocol", [n!"MessageHeaderTypes", n!"location_protocol"]), (n!"location_protocol", [n!"LocationProtocol"]), (n!"HyteraDmrApplicationProtocol", [n!"MessageHeaderTypes", n!"data_transmit_protocol"]), (n!"data_transmit_protocol", [n!"DataTransmitProtocol"]), (n!"kaitaistruct", [n!"ValidationNotEqualError"])]

/-- /repo/okdmr/kaitai/hytera/hytera_radio_network_protocol.py -/
def okdmr_kaitai_hytera_hytera_radio_network_protocol : Module where
  name := n!"okdmr.kaitai.hytera.hytera_radio_network_protocol"
  parent := some (n!"okdmr.kaitai.hytera", n!"hytera_radio_network_protocol")
  body := [.import_ n!"kaitaistruct",
    .from_ n!"kaitaistruct" n!"KaitaiStruct",
    .from_ n!"kaitaistruct" n!"KaitaiStream",
    .from_ n!"kaitaistruct" n!"BytesIO",
    .from_ n!"enum" n!"Enum",
    .check,
    .from_ n!"okdmr.kaitai.hytera" n!"hytera_dmr_application_protocol",
    .define n!"HyteraRadioNetworkProtocol"
      [(n!"KaitaiStruct", []), (n!"Enum", [])]
      [[n!"HyteraRadioNetworkProtocol"], [n!"HyteraRadioNetworkProtocol", n!"Opcodes"], [n!"HyteraRadioNetworkProtocol", n!"Opcodes", n!"data"], [n!"HyteraRadioNetworkProtocol", n!"Opcodes", n!"data_ack"], [n!"HyteraRadioNetworkProtocol", n!"Opcodes", n!"close_ack"], [n!"HyteraRadioNetworkProtocol", n!"Opcodes", n!"close"], [n!"HyteraRadioNetworkProtocol", n!"Opcodes", n!"reject"], [n!"HyteraRadioNetworkProtocol", n!"Opcodes", n!"accept"], [n!"HyteraRadioNetworkProtocol", n!"Opcodes", n!"connect"], [n!"HyteraRadioNetworkProtocol", n!"_read"]]]
  later := [(n!"kaitaistruct", [n!"ValidationNotEqualError"]), (n!"KaitaiStream", [n!"resolve_enum"]), (n!"HyteraRadioNetworkProtocol", [n!"Opcodes"]), (n!"HyteraRadioNetworkProtocol", [n!"Opcodes", n!"data"]), (n!"hytera_dmr_application_protocol", [n!"HyteraDmrApplicationProtocol"])]

/-- /repo/okdmr/kaitai/hytera/hytera_simple_transport_reliability_protocol.py -/
def okdmr_kaitai_hytera_hytera_simple_transport_reliability_protocol : Module where
  name := n!"okdmr.kaitai.hytera.hytera_simple_transport_reliability_protocol"
  parent := some (n!"okdmr.kaitai.hytera", n!"hytera_simple_transport_reliability_protocol")
  body := [.import_ n!"kaitaistruct",
    .from_ n!"kaitaistruct" n!"KaitaiStruct",
    .from_ n!"kaitaistruct" n!"KaitaiStream",
    .from_ n!"kaitaistruct" n!"BytesIO",
    .from_ n!"enum" n!"Enum",
    .check,
    .from_ n!"okdmr.kaitai.hytera" n!"hytera_dmr_application_protocol",
    .define n!"HyteraSimpleTransportReliabilityProtocol"
      [(n!"KaitaiStruct", []), (n!"Enum", [])]
      [[n!"HyteraSimpleTransportReliabilityProtocol"], [n!"HyteraSimpleTransportReliabilityProtocol", n!"OptionCommands"], [n!"HyteraSimpleTransportReliabilityProtocol", n!"OptionCommands", n!"realtime"], [n!"HyteraSimpleTransportReliabilityProtocol", n!"OptionCommands", n!"device_id"], [n!"HyteraSimpleTransportReliabilityProtocol", n!"OptionCommands", n!"channel_id"], [n!"HyteraSimpleTransportReliabilityProtocol", n!"_read"], [n!"HyteraSimpleTransportReliabilityProtocol", n!"Option"], [n!"HyteraSimpleTransportReliabilityProtocol", n!"Option", n!"_read"]]]
  later := [(n!"kaitaistruct", [n!"ValidationNotEqualError"]), (n!"HyteraSimpleTransportReliabilityProtocol", [n!"Option"]), (n!"hytera_dmr_application_protocol", [n!"HyteraDmrApplicationProtocol"]), (n!"KaitaiStream", [n!"resolve_enum"]), (n!"HyteraSimpleTransportReliabilityProtocol", [n!"OptionCommands"])]

/-- /repo/okdmr/kaitai/hytera/ip_site_connect_heartbeat.py -/
def okdmr_kaitai_hytera_ip_site_connect_heartbeat : Module where
  name := n!"okdmr.kaitai.hytera.ip_site_connect_heartbeat"
  parent := some (n!"okdmr.kaitai.hytera", n!"ip_site_connect_heartbeat")
  body := [.import_ n!"kaitaistruct",
    .from_ n!"kaitaistruct" n!"KaitaiStruct",
    .from_ n!"kaitaistruct" n!"KaitaiStream",
    .from_ n!"kaitaistruct" n!"BytesIO",
    .check,
    .define n!"IpSiteConnectHeartbeat"
      [(n!"KaitaiStruct", [])]
      [[n!"IpSiteConnectHeartbeat"], [n!"IpSiteConnectHeartbeat", n!"_read"], [n!"IpSiteConnectHeartbeat", n!"Keepalive"], [n!"IpSiteConnectHeartbeat", n!"Keepalive", n!"_read"], [n!"IpSiteConnectHeartbeat", n!"PingPong"], [n!"IpSiteConnectHeartbeat", n!"PingPong", n!"_read"], [n!"IpSiteConnectHeartbeat", n!"Unknown"], [n!"IpSiteConnectHeartbeat", n!"Unknown", n!"_read"]]]
  later := [(n!"IpSiteConnectHeartbeat", [n!"Keepalive"]), (n!"IpSiteConnectHeartbeat", [n!"PingPong"]), (n!"IpSiteConnectHeartbeat", [n!"Unknown"]), (n!"kaitaistruct", [n!"ValidationNotEqualError"])]

/-- /repo/okdmr/kaitai/hytera/ip_site_connect_protocol.py -/
def okdmr_kaitai_hytera_ip_site_connect_protocol : Module where
  name := n!"okdmr.kaitai.hytera.ip_site_connect_protocol"
  parent := some (n!"okdmr.kaitai.hytera", n!"ip_site_connect_protocol")
  body := [.import_ n!"kaitaistruct",
    .from_ n!"kaitaistruct" n!"KaitaiStruct",
    .from_ n!"kaitaistruct" n!"KaitaiStream",
    .from_ n!"kaitaistruct" n!"BytesIO",
    .from_ n!"enum" n!"Enum",
    .check,
    .define n!"IpSiteConnectProtocol"
      [(n!"KaitaiStruct", []), (n!"Enum", []), (n!"property", [])]
      [[n!"IpSiteConnectProtocol"], [n!"IpSiteConnectProtocol", n!"PacketTypes"], [n!"IpSiteConnectProtocol", n!"PacketTypes", n!"pi_header"], [n!"IpSiteConnectProtocol", n!"PacketTypes", n!"a"], [n!"IpSiteConnectProtocol", n!"PacketTypes", n!"b"], [n!"IpSiteConnectProtocol", n!"PacketTypes", n!"terminator"], [n!"IpSiteConnectProtocol", n!"FrameTypes"], [n!"IpSiteConnectProtocol", n!"FrameTypes", n!"frame_type_data"], [n!"IpSiteConnectProtocol", n!"FrameTypes", n!"frame_type_voice_sync"], [n!"IpSiteConnectProtocol", n!"FrameTypes", n!"frame_type_data_sync_or_csbk"], [n!"IpSiteConnectProtocol", n!"FrameTypes", n!"frame_type_data_header"], [n!"IpSiteConnectProtocol", n!"FrameTypes", n!"frame_type_voice"], [n!"IpSiteConnectProtocol", n!"FrameTypes", n!"frame_type_sync"], [n!"IpSiteConnectProtocol", n!"CallTypes"], [n!"IpSiteConnectProtocol", n!"CallTypes", n!"private_call"], [n!"IpSiteConnectProtocol", n!"CallTypes", n!"group_call"], [n!"IpSiteConnectProtocol", n!"CallTypes", n!"wakeup_call_2"], [n!"IpSiteConnectProtocol", n!"CallTypes", n!"wakeup_call_c"], [n!"IpSiteConnectProtocol", n!"SlotTypes"], [n!"IpSiteConnectProtocol", n!"SlotTypes", n!"slot_type_privacy_indicator"], [n!"IpSiteConnectProtocol", n!"SlotTypes", n!"slot_type_voice_lc_header"], [n!"IpSiteConnectProtocol", n!"SlotTypes", n!"slot_type_terminator_with_lc"], [n!"IpSiteConnectProtocol", n!"SlotTypes", n!"slot_type_csbk"], [n!"IpSiteConnectProtocol", n!"SlotTypes", n!"slot_type_data_header"], [n!"IpSiteConnectProtocol", n!"SlotTypes", n!"slot_type_rate_12_data"], [n!"IpSiteConnectProtocol", n!"SlotTypes", n!"slot_type_rate_34_data"], [n!"IpSiteConnectProtocol", n!"SlotTypes", n!"slot_type_data_a"], [n!"IpSiteConnectProtocol", n!"SlotTypes", n!"slot_type_data_b"], [n!"IpSiteConnectProtocol", n!"SlotTypes", n!"slot_type_data_c"], [n!"IpSiteConnectProtocol", n!"SlotTypes", n!"slot_type_data_d"], [n!"IpSiteConnectProtocol", n!"SlotTypes", n!"slot_type_data_e"], [n!"IpSiteConnectProtocol", n!"SlotTypes", n!"slot_type_data_f"], [n!"IpSiteConnectProtocol", n!"SlotTypes", n!"slot_type_wakeup_request"], [n!"IpSiteConnectProtocol", n!"SlotTypes", n!"slot_type_sync"], [n!"IpSiteConnectProtocol", n!"Timeslots"], [n!"IpSiteConnectProtocol", n!"Timeslots", n!"timeslot_1"], [n!"IpSiteConnectProtocol", n!"Timeslots", n!"timeslot_2"], [n!"IpSiteConnectProtocol", n!"_read"], [n!"IpSiteConnectProtocol", n!"source_radio_id"], [n!"IpSiteConnectProtocol", n!"destination_radio_id"], [n!"IpSiteConnectProtocol", n!"color_code"], [n!"IpSiteConnectProtocol", n!"is_wakeup"]]]
  later := [(n!"kaitaistruct", [n!"ValidationNotEqualError"]), (n!"KaitaiStream", [n!"resolve_enum"]), (n!"IpSiteConnectProtocol", [n!"PacketTypes"]), (n!"IpSiteConnectProtocol", [n!"Timeslots"]), (n!"IpSiteConnectProtocol", [n!"SlotTypes"]), (n!"IpSiteConnectProtocol", [n!"FrameTypes"]), (n!"IpSiteConnectProtocol", [n!"CallTypes"]), (n!"hasattr", []), (n!"getattr", []), (n!"IpSiteConnectProtocol", [n!"CallTypes", n!"wakeup_call_2"]), (n!"IpSiteConnectProtocol", [n!"CallTypes", n!"wakeup_call_c"]), (n!"IpSiteConnectProtocol", [n!"SlotTypes", n!"slot_type_wakeup_request"])]

/-- /repo/okdmr/kaitai/hytera/radio_id.py -/
def okdmr_kaitai_hytera_radio_id : Module where
  name := n!"okdmr.kaitai.hytera.radio_id"
  parent := some (n!"okdmr.kaitai.hytera", n!"radio_id")
  body := [.import_ n!"kaitaistruct",
    .from_ n!"kaitaistruct" n!"KaitaiStruct",
    .from_ n!"kaitaistruct" n!"KaitaiStream",
    .from_ n!"kaitaistruct" n!"BytesIO",
    .check,
    .define n!"RadioId"
      [(n!"KaitaiStruct", []), (n!"property", [])]
      [[n!"RadioId"], [n!"RadioId", n!"_read"], [n!"RadioId", n!"radio_id"]]]
  later := [(n!"hasattr", []), (n!"getattr", [])]

/-- /repo/okdmr/kaitai/hytera/real_time_transport_protocol.py -/
def okdmr_kaitai_hytera_real_time_transport_protocol : Module where
  name := n!"okdmr.kaitai.hytera.real_time_transport_protocol"
  parent := some (n!"okdmr.kaitai.hytera", n!"real_time_transport_protocol")
  body := [.import_ n!"kaitaistruct",
    .from_ n!"kaitaistruct" n!"KaitaiStruct",
    .from_ n!"kaitaistruct" n!"KaitaiStream",
    .from_ n!"kaitaistruct" n!"BytesIO",
    .from_ n!"enum" n!"Enum",
    .check,
    .from_ n!"okdmr.kaitai.hytera" n!"radio_id",
    .define n!"RealTimeTransportProtocol"
      [(n!"KaitaiStruct", []), (n!"Enum", []), (n!"property", [])]
      [[n!"RealTimeTransportProtocol"], [n!"RealTimeTransportProtocol", n!"RtpPayloadTypes"], [n!"RealTimeTransportProtocol", n!"RtpPayloadTypes", n!"mu_law"], [n!"RealTimeTransportProtocol", n!"RtpPayloadTypes", n!"a_law"], [n!"RealTimeTransportProtocol", n!"CallTypes"], [n!"RealTimeTransportProtocol", n!"CallTypes", n!"private_call"], [n!"RealTimeTransportProtocol", n!"CallTypes", n!"group_call"], [n!"RealTimeTransportProtocol", n!"CallTypes", n!"all_call"], [n!"RealTimeTransportProtocol", n!"_read"], [n!"RealTimeTransportProtocol", n!"FixedHeader"], [n!"RealTimeTransportProtocol", n!"FixedHeader", n!"_read"], [n!"RealTimeTransportProtocol", n!"HeaderExtension"], [n!"RealTimeTransportProtocol", n!"HeaderExtension", n!"_read"], [n!"RealTimeTransportProtocol", n!"len_padding_if_exists"], [n!"RealTimeTransportProtocol", n!"len_padding"]]]
  later := [(n!"RealTimeTransportProtocol", [n!"FixedHeader"]), (n!"RealTimeTransportProtocol", [n!"HeaderExtension"]), (n!"kaitaistruct", [n!"ValidationNotEqualError"]), (n!"range", []), (n!"radio_id", [n!"RadioId"]), (n!"KaitaiStream", [n!"resolve_enum"]), (n!"RealTimeTransportProtocol", [n!"CallTypes"]), (n!"hasattr", []), (n!"getattr", [])]

/-- /repo/okdmr/kaitai/motorola/__init__.py -/
def okdmr_kaitai_motorola : Module where
  name := n!"okdmr.kaitai.motorola"
  parent := some (n!"okdmr.kaitai", n!"motorola")
  body := []
  later := []

/-- /repo/okdmr/kaitai/motorola/automatic_registration_service.py -/
def okdmr_kaitai_motorola_automatic_registration_service : Module where
  name := n!"okdmr.kaitai.motorola.automatic_registration_service"
  parent := some (n!"okdmr.kaitai.motorola", n!"automatic_registration_service")
  body := [.import_ n!"kaitaistruct",
    .from_ n!"kaitaistruct" n!"KaitaiStruct",
    .from_ n!"kaitaistruct" n!"KaitaiStream",
    .from_ n!"kaitaistruct" n!"BytesIO",
    .from_ n!"enum" n!"Enum",
    .check,
    .define n!"AutomaticRegistrationService"
      [(n!"KaitaiStruct", []), (n!"Enum", [])]
      [[n!"AutomaticRegistrationService"], [n!"AutomaticRegistrationService", n!"RegistrationEvents"], [n!"AutomaticRegistrationService", n!"RegistrationEvents", n!"initial_event"], [n!"AutomaticRegistrationService", n!"RegistrationEvents", n!"refresh_event"], [n!"AutomaticRegistrationService", n!"FailureReasons"], [n!"AutomaticRegistrationService", n!"FailureReasons", n!"device_not_authorized"], [n!"AutomaticRegistrationService", n!"_read"], [n!"AutomaticRegistrationService", n!"AcknowledgementMessage"], [n!"AutomaticRegistrationService", n!"AcknowledgementMessage", n!"_read"], [n!"AutomaticRegistrationService", n!"DeviceRegistrationMessageHeader"], [n!"AutomaticRegistrationService", n!"DeviceRegistrationMessageHeader", n!"_read"], [n!"AutomaticRegistrationService", n!"MessageHeaderBits"], [n!"AutomaticRegistrationService", n!"MessageHeaderBits", n!"_read"], [n!"AutomaticRegistrationService", n!"DeviceDeregistrationMessage"], [n!"AutomaticRegistrationService", n!"DeviceDeregistrationMessage", n!"_read"], [n!"AutomaticRegistrationService", n!"DeviceRegistrationAcknowledgementFailureReason"], [n!"AutomaticRegistrationService", n!"DeviceRegistrationAcknowledgementFailureReason", n!"_read"], [n!"AutomaticRegistrationService", n!"DeviceRegistrationMessage"], [n!"AutomaticRegistrationService", n!"DeviceRegistrationMessage", n!"_read"], [n!"AutomaticRegistrationService", n!"ArsQueryMessage"], [n!"AutomaticRegistrationService", n!"ArsQueryMessage", n!"_read"], [n!"AutomaticRegistrationService", n!"DeviceRegistrationAcknowledgementHeader"], [n!"AutomaticRegistrationService", n!"DeviceRegistrationAcknowledgementHeader", n!"_read"]]]
  later := [(n!"AutomaticRegistrationService", [n!"MessageHeaderBits"]), (n!"AutomaticRegistrationService", [n!"DeviceRegistrationMessage"]), (n!"AutomaticRegistrationService", [n!"DeviceDeregistrationMessage"]), (n!"AutomaticRegistrationService", [n!"ArsQueryMessage"]), (n!"AutomaticRegistrationService", [n!"AcknowledgementMessage"]), (n!"AutomaticRegistrationService", [n!"DeviceRegistrationAcknowledgementHeader"]), (n!"AutomaticRegistrationService", [n!"DeviceRegistrationAcknowledgementFailureReason"]), (n!"KaitaiStream", [n!"resolve_enum"]), (n!"AutomaticRegistrationService", [n!"RegistrationEvents"]), (n!"AutomaticRegistrationService", [n!"FailureReasons"]), (n!"AutomaticRegistrationService", [n!"DeviceRegistrationMessageHeader"])]

/-- /repo/okdmr/kaitai/motorola/motorola_binary_xml.py -/
def okdmr_kaitai_motorola_motorola_binary_xml : Module where
  name := n!"okdmr.kaitai.motorola.motorola_binary_xml"
  parent := some (n!"okdmr.kaitai.motorola", n!"motorola_binary_xml")
  body := [.import_ n!"kaitaistruct",
    .from_ n!"kaitaistruct" n!"KaitaiStruct",
    .from_ n!"kaitaistruct" n!"KaitaiStream",
    .from_ n!"kaitaistruct" n!"BytesIO",
    .from_ n!"enum" n!"Enum",
    .check,
    .define n!"MotorolaBinaryXml"
      [(n!"KaitaiStruct", []), (n!"Enum", [])]
      [[n!"MotorolaBinaryXml"], [n!"MotorolaBinaryXml", n!"Docids"], [n!"MotorolaBinaryXml", n!"Docids", n!"lrrp_immediate_request"], [n!"MotorolaBinaryXml", n!"Docids", n!"lrrp_immediate_request_ncdt"], [n!"MotorolaBinaryXml", n!"Docids", n!"lrrp_immediate_response"], [n!"MotorolaBinaryXml", n!"Docids", n!"lrrp_immediate_response_ncdt"], [n!"MotorolaBinaryXml", n!"LrrpElements"], [n!"MotorolaBinaryXml", n!"LrrpElements", n!"request_id_22_opaque"], [n!"MotorolaBinaryXml", n!"LrrpElements", n!"request_id_23_opaque_1byte"], [n!"MotorolaBinaryXml", n!"LrrpElements", n!"request_id_24_cdt_reference"], [n!"MotorolaBinaryXml", n!"_read"], [n!"MotorolaBinaryXml", n!"LrrpImmediateRequestNcdt"], [n!"MotorolaBinaryXml", n!"LrrpImmediateRequestNcdt", n!"_read"], [n!"MotorolaBinaryXml", n!"Opaque3byteValue"], [n!"MotorolaBinaryXml", n!"Opaque3byteValue", n!"_read"], [n!"MotorolaBinaryXml", n!"LrrpElement"], [n!"MotorolaBinaryXml", n!"LrrpElement", n!"_read"], [n!"MotorolaBinaryXml", n!"Sfloatvar"], [n!"MotorolaBinaryXml", n!"Sfloatvar", n!"_read"], [n!"MotorolaBinaryXml", n!"Opaque5byteValue"], [n!"MotorolaBinaryXml", n!"Opaque5byteValue", n!"_read"], [n!"MotorolaBinaryXml", n!"Opaque1byteValue"], [n!"MotorolaBinaryXml", n!"Opaque1byteValue", n!"_read"], [n!"MotorolaBinaryXml", n!"Uintvar"], [n!"MotorolaBinaryXml", n!"Uintvar", n!"_read"], [n!"MotorolaBinaryXml", n!"Ufloatvar"], [n!"MotorolaBinaryXml", n!"Ufloatvar", n!"_read"], [n!"MotorolaBinaryXml", n!"ConstantDataTableReference"], [n!"MotorolaBinaryXml", n!"ConstantDataTableReference", n!"_read"], [n!"MotorolaBinaryXml", n!"MbxmlDocument"], [n!"MotorolaBinaryXml", n!"MbxmlDocument", n!"_read"], [n!"MotorolaBinaryXml", n!"OpaqueElementValue"], [n!"MotorolaBinaryXml", n!"OpaqueElementValue", n!"_read"], [n!"MotorolaBinaryXml", n!"Opaque2byteValue"], [n!"MotorolaBinaryXml", n!"Opaque2byteValue", n!"_read"], [n!"MotorolaBinaryXml", n!"Sintvar"], [n!"MotorolaBinaryXml", n!"Sintvar", n!"_read"], [n!"MotorolaBinaryXml", n!"Opaque4byteValue"], [n!"MotorolaBinaryXml", n!"Opaque4byteValue", n!"_read"]]]
  later := [(n!"MotorolaBinaryXml", [n!"MbxmlDocument"]), (n!"MotorolaBinaryXml", [n!"LrrpElement"]), (n!"KaitaiStream", [n!"resolve_enum"]), (n!"MotorolaBinaryXml", [n!"LrrpElements"]), (n!"MotorolaBinaryXml", [n!"LrrpElements", n!"request_id_22_opaque"]), (n!"MotorolaBinaryXml", [n!"OpaqueElementValue"]), (n!"MotorolaBinaryXml", [n!"LrrpElements", n!"request_id_23_opaque_1byte"]), (n!"MotorolaBinaryXml", [n!"Opaque1byteValue"]), (n!"MotorolaBinaryXml", [n!"LrrpElements", n!"request_id_24_cdt_reference"]), (n!"MotorolaBinaryXml", [n!"ConstantDataTableReference"]), (n!"MotorolaBinaryXml", [n!"Sintvar"]), (n!"MotorolaBinaryXml", [n!"Uintvar"]), (n!"MotorolaBinaryXml", [n!"Docids"]), (n!"MotorolaBinaryXml", [n!"Docids", n!"lrrp_immediate_request_ncdt"]), (n!"MotorolaBinaryXml", [n!"LrrpImmediateRequestNcdt"])]

/-- /repo/okdmr/kaitai/motorola/motorola_utils.py -/
def okdmr_kaitai_motorola_motorola_utils : Module where
  name := n!"okdmr.kaitai.motorola.motorola_utils"
  parent := some (n!"okdmr.kaitai.motorola", n!"motorola_utils")
  body := [.from_ n!"typing" n!"List",
    .define n!"uintvar_to_int" [(n!"List", []), (n!"int", [])] [[n!"uintvar_to_int"]],
    .define n!"clear_msb" [(n!"int", [])] [[n!"clear_msb"]],
    .define n!"sintvar_to_int" [(n!"List", []), (n!"int", [])] [[n!"sintvar_to_int"]],
    .define n!"ufloatvar_to_float" [(n!"List", []), (n!"int", []), (n!"float", [])] [[n!"ufloatvar_to_float"]],
    .define n!"sfloatvar_to_float" [(n!"List", []), (n!"int", []), (n!"float", [])] [[n!"sfloatvar_to_float"]]]
  later := [(n!"int", []), (n!"bin", []), (n!"clear_msb", []), (n!"uintvar_to_int", []), (n!"len", []), (n!"float", [])]

/-- /repo/okdmr/kaitai/motorola/text_message_protocol.py -/
def okdmr_kaitai_motorola_text_message_protocol : Module where
  name := n!"okdmr.kaitai.motorola.text_message_protocol"
  parent := some (n!"okdmr.kaitai.motorola", n!"text_message_protocol")
  body := [.import_ n!"kaitaistruct",
    .from_ n!"kaitaistruct" n!"KaitaiStruct",
    .from_ n!"kaitaistruct" n!"KaitaiStream",
    .from_ n!"kaitaistruct" n!"BytesIO",
    .from_ n!"enum" n!"Enum",
    .check,
    .define n!"TextMessageProtocol"
      [(n!"KaitaiStruct", []), (n!"Enum", []), (n!"property", [])]
      [[n!"TextMessageProtocol"], [n!"TextMessageProtocol", n!"TmsServiceCapability"], [n!"TextMessageProtocol", n!"TmsServiceCapability", n!"limited_capability"], [n!"TextMessageProtocol", n!"TmsServiceCapability", n!"internal_capability"], [n!"TextMessageProtocol", n!"TmsServiceCapability", n!"external_capability"], [n!"TextMessageProtocol", n!"TmsServiceCapability", n!"full_capability"], [n!"TextMessageProtocol", n!"_read"], [n!"TextMessageProtocol", n!"TextMessage"], [n!"TextMessageProtocol", n!"TextMessage", n!"_read"], [n!"TextMessageProtocol", n!"TmsServiceAvailability"], [n!"TextMessageProtocol", n!"TmsServiceAvailability", n!"_read"], [n!"TextMessageProtocol", n!"TextMessageHeaderSequenceAndEncoding"], [n!"TextMessageProtocol", n!"TextMessageHeaderSequenceAndEncoding", n!"_read"], [n!"TextMessageProtocol", n!"TextMessageHeaderSequenceAndEncoding", n!"sequence_number"], [n!"TextMessageProtocol", n!"MessageHeaderBits"], [n!"TextMessageProtocol", n!"MessageHeaderBits", n!"_read"], [n!"TextMessageProtocol", n!"TmsAcknowledgement"], [n!"TextMessageProtocol", n!"TmsAcknowledgement", n!"_read"], [n!"TextMessageProtocol", n!"TmsAcknowledgementHeaderSequenceNumber"], [n!"TextMessageProtocol", n!"TmsAcknowledgementHeaderSequenceNumber", n!"_read"], [n!"TextMessageProtocol", n!"TmsAcknowledgementHeaderSequenceNumber", n!"sequence_number"], [n!"TextMessageProtocol", n!"TmsServiceAvailabilityAcknowledgement"], [n!"TextMessageProtocol", n!"TmsServiceAvailabilityAcknowledgement", n!"_read"], [n!"TextMessageProtocol", n!"TmsServiceAvailabilityHeader"], [n!"TextMessageProtocol", n!"TmsServiceAvailabilityHeader", n!"_read"], [n!"TextMessageProtocol", n!"custom_pdu_type"]]]
  later := [(n!"TextMessageProtocol", [n!"MessageHeaderBits"]), (n!"TextMessageProtocol", [n!"TmsServiceAvailability"]), (n!"TextMessageProtocol", [n!"TmsAcknowledgement"]), (n!"TextMessageProtocol", [n!"TextMessage"]), (n!"TextMessageProtocol", [n!"TextMessageHeaderSequenceAndEncoding"]), (n!"TextMessageProtocol", [n!"TmsServiceAvailabilityHeader"]), (n!"hasattr", []), (n!"getattr", []), (n!"TextMessageProtocol", [n!"TmsAcknowledgementHeaderSequenceNumber"]), (n!"KaitaiStream", [n!"resolve_enum"]), (n!"TextMessageProtocol", [n!"TmsServiceCapability"]), (n!"int", [])]

/-- /repo/okdmr/kaitai/tools/__init__.py -/
def okdmr_kaitai_tools : Module where
  name := n!"okdmr.kaitai.tools"
  parent := some (n!"okdmr.kaitai", n!"tools")
  body := []
  later := []

/-- /repo/okdmr/kaitai/tools/byteswap.py -/
def okdmr_kaitai_tools_byteswap : Module where
  name := n!"okdmr.kaitai.tools.byteswap"
  parent := some (n!"okdmr.kaitai.tools", n!"byteswap")
  body := [.define n!"byteswap_bytearray" [(n!"bytearray", []), (n!"bytes", [])] [[n!"byteswap_bytearray"]],
    .define n!"byteswap_bytes" [(n!"bytes", [])] [[n!"byteswap_bytes"]]]
  later := [(n!"len", []), (n!"bytes", []), (n!"byteswap_bytearray", []), (n!"bytearray", [])]

/-- /repo/okdmr/kaitai/tools/prettyprint.py -/
def okdmr_kaitai_tools_prettyprint : Module where
  name := n!"okdmr.kaitai.tools.prettyprint"
  parent := some (n!"okdmr.kaitai.tools", n!"prettyprint")
  body := [.from_ n!"pprint" n!"pprint",
    .from_ n!"kaitaistruct" n!"KaitaiStruct",
    .define n!"prettyprint" [(n!"KaitaiStruct", [])] [[n!"prettyprint"]],
    .define n!"_array_prettyprint" [(n!"list", [])] [[n!"_array_prettyprint"]],
    .define n!"_prettyprint" [(n!"KaitaiStruct", []), (n!"dict", [])] [[n!"_prettyprint"]]]
  later := [(n!"pprint", []), (n!"_prettyprint", []), (n!"list", []), (n!"map", []), (n!"isinstance", []), (n!"KaitaiStruct", []), (n!"_array_prettyprint", [])]

/-- /repo/okdmr/kaitai/tools/debug.py -/
def okdmr_kaitai_tools_debug : Module where
  name := n!"okdmr.kaitai.tools.debug"
  parent := some (n!"okdmr.kaitai.tools", n!"debug")
  body := [.import_ n!"sys",
    .from_ n!"argparse" n!"ArgumentParser",
    .from_ n!"typing" n!"Type",
    .from_ n!"typing" n!"Optional",
    .from_ n!"typing" n!"List",
    .from_ n!"kaitaistruct" n!"KaitaiStruct",
    .from_ n!"okdmr.kaitai.hytera.ip_site_connect_protocol" n!"IpSiteConnectProtocol",
    .from_ n!"okdmr.kaitai.tools.byteswap" n!"byteswap_bytes",
    .from_ n!"okdmr.kaitai.tools.prettyprint" n!"prettyprint",
    .define n!"ProtocolDebug"
      [(n!"staticmethod", []), (n!"str", []), (n!"ArgumentParser", []), (n!"Type", []), (n!"KaitaiStruct", []), (n!"Optional", []), (n!"List", [])]
      [[n!"ProtocolDebug"], [n!"ProtocolDebug", n!"_args"], [n!"ProtocolDebug", n!"_impl"]]]
  later := [(n!"ArgumentParser", []), (n!"str", []), (n!"ProtocolDebug", [n!"_args"]), (n!"len", []), (n!"sys", [n!"argv"]), (n!"bytes", [n!"fromhex"]), (n!"isinstance", []), (n!"IpSiteConnectProtocol", []), (n!"getattr", []), (n!"prettyprint", []), (n!"IpSiteConnectProtocol", [n!"SlotTypes", n!"slot_type_sync"]), (n!"print", []), (n!"byteswap_bytes", [])]

/-- /repo/okdmr/kaitai/tools/debug_homebrew.py -/
def okdmr_kaitai_tools_debug_homebrew : Module where
  name := n!"okdmr.kaitai.tools.debug_homebrew"
  parent := some (n!"okdmr.kaitai.tools", n!"debug_homebrew")
  body := [.from_ n!"okdmr.kaitai.homebrew.homebrew2015" n!"Homebrew2015",
    .from_ n!"okdmr.kaitai.homebrew.mmdvm2020" n!"Mmdvm2020",
    .from_ n!"okdmr.kaitai.tools.debug" n!"ProtocolDebug",
    .define n!"DebugHomebrew"
      [(n!"ProtocolDebug", []), (n!"staticmethod", [])]
      [[n!"DebugHomebrew"], [n!"DebugHomebrew", n!"homebrew"], [n!"DebugHomebrew", n!"mmdvm"], [n!"DebugHomebrew", n!"_args"], [n!"DebugHomebrew", n!"_impl"]]]
  later := [(n!"DebugHomebrew", [n!"_impl"]), (n!"Homebrew2015", []), (n!"Mmdvm2020", [])]

/-- /repo/okdmr/kaitai/tools/debug_hytera.py -/
def okdmr_kaitai_tools_debug_hytera : Module where
  name := n!"okdmr.kaitai.tools.debug_hytera"
  parent := some (n!"okdmr.kaitai.tools", n!"debug_hytera")
  body := [.from_ n!"okdmr.kaitai.hytera.data_delivery_states" n!"DataDeliveryStates",
    .from_ n!"okdmr.kaitai.hytera.data_transmit_protocol" n!"DataTransmitProtocol",
    .from_ n!"okdmr.kaitai.hytera.hytera_dmr_application_protocol" n!"HyteraDmrApplicationProtocol",
    .from_ n!"okdmr.kaitai.hytera.hytera_radio_network_protocol" n!"HyteraRadioNetworkProtocol",
    .from_ n!"okdmr.kaitai.hytera.hytera_simple_transport_reliability_protocol" n!"HyteraSimpleTransportReliabilityProtocol",
    .from_ n!"okdmr.kaitai.hytera.ip_site_connect_protocol" n!"IpSiteConnectProtocol",
    .from_ n!"okdmr.kaitai.hytera.location_protocol" n!"LocationProtocol",
    .from_ n!"okdmr.kaitai.hytera.radio_control_protocol" n!"RadioControlProtocol",
    .from_ n!"okdmr.kaitai.hytera.radio_registration_service" n!"RadioRegistrationService",
    .from_ n!"okdmr.kaitai.hytera.telemetry_protocol" n!"TelemetryProtocol",
    .from_ n!"okdmr.kaitai.hytera.text_message_protocol" n!"TextMessageProtocol",
    .from_ n!"okdmr.kaitai.tools.debug" n!"ProtocolDebug",
    .define n!"DebugHytera"
      [(n!"ProtocolDebug", []), (n!"staticmethod", [])]
      [[n!"DebugHytera"], [n!"DebugHytera", n!"rrs"], [n!"DebugHytera", n!"tmp"], [n!"DebugHytera", n!"ipsc"], [n!"DebugHytera", n!"rcp"], [n!"DebugHytera", n!"dds"], [n!"DebugHytera", n!"hdap"], [n!"DebugHytera", n!"hrnp"], [n!"DebugHytera", n!"hstrp"], [n!"DebugHytera", n!"lp"], [n!"DebugHytera", n!"dtp"], [n!"DebugHytera", n!"tp"], [n!"DebugHytera", n!"_args"], [n!"DebugHytera", n!"_impl"]]]
  later := [(n!"DebugHytera", [n!"_impl"]), (n!"RadioRegistrationService", []), (n!"TextMessageProtocol", []), (n!"IpSiteConnectProtocol", []), (n!"RadioControlProtocol", []), (n!"DataDeliveryStates", []), (n!"HyteraDmrApplicationProtocol", []), (n!"HyteraRadioNetworkProtocol", []), (n!"HyteraSimpleTransportReliabilityProtocol", []), (n!"LocationProtocol", []), (n!"DataTransmitProtocol", []), (n!"TelemetryProtocol", [])]

/-- /repo/okdmr/kaitai/tools/debug_motorola.py -/
def okdmr_kaitai_tools_debug_motorola : Module where
  name := n!"okdmr.kaitai.tools.debug_motorola"
  parent := some (n!"okdmr.kaitai.tools", n!"debug_motorola")
  body := [.from_ n!"okdmr.kaitai.motorola.automatic_registration_service" n!"AutomaticRegistrationService",
    .from_ n!"okdmr.kaitai.motorola.text_message_protocol" n!"TextMessageProtocol",
    .from_ n!"okdmr.kaitai.tools.debug" n!"ProtocolDebug",
    .define n!"DebugMotorola"
      [(n!"ProtocolDebug", []), (n!"staticmethod", [])]
      [[n!"DebugMotorola"], [n!"DebugMotorola", n!"ars"], [n!"DebugMotorola", n!"tmp"], [n!"DebugMotorola", n!"_args"], [n!"DebugMotorola", n!"_impl"]]]
  later := [(n!"DebugMotorola", [n!"_impl"]), (n!"AutomaticRegistrationService", []), (n!"TextMessageProtocol", [])]

/-- All modules. -/
def modules : List Module := [okdmr, okdmr_kaitai, okdmr_kaitai_etsi, okdmr_kaitai_etsi_dmr_csbk, okdmr_kaitai_etsi_dmr_data, okdmr_kaitai_etsi_dmr_data_header, okdmr_kaitai_etsi_dmr_ip_udp, okdmr_kaitai_etsi_full_link_control, okdmr_kaitai_homebrew, okdmr_kaitai_homebrew_homebrew2015, okdmr_kaitai_homebrew_mmdvm2020, okdmr_kaitai_hytera, okdmr_kaitai_hytera_radio_ip, okdmr_kaitai_hytera_data_delivery_states, okdmr_kaitai_hytera_data_transmit_protocol, okdmr_kaitai_hytera_datetimestring, okdmr_kaitai_hytera_gpsdata, okdmr_kaitai_hytera_radio_control_protocol, okdmr_kaitai_hytera_telemetry_protocol, okdmr_kaitai_hytera_intervalstring, okdmr_kaitai_hytera_location_protocol, okdmr_kaitai_hytera_text_message_protocol, okdmr_kaitai_hytera_radio_registration_service, okdmr_kaitai_hytera_hytera_dmr_application_protocol, okdmr_kaitai_hytera_hytera_radio_network_protocol, okdmr_kaitai_hytera_hytera_simple_transport_reliability_protocol, okdmr_kaitai_hytera_ip_site_connect_heartbeat, okdmr_kaitai_hytera_ip_site_connect_protocol, okdmr_kaitai_hytera_radio_id, okdmr_kaitai_hytera_real_time_transport_protocol, okdmr_kaitai_motorola, okdmr_kaitai_motorola_automatic_registration_service, okdmr_kaitai_motorola_motorola_binary_xml, okdmr_kaitai_motorola_motorola_utils, okdmr_kaitai_motorola_text_message_protocol, okdmr_kaitai_tools, okdmr_kaitai_tools_byteswap, okdmr_kaitai_tools_prettyprint, okdmr_kaitai_tools_debug, okdmr_kaitai_tools_debug_homebrew, okdmr_kaitai_tools_debug_hytera, okdmr_kaitai_tools_debug_motorola]

end Dmr.Py.Imports.Source
