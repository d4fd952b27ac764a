{
 "claims": [
  {
   "property": "C01",
   "status": "proved",
   "theorems": [
    "Dmr.C01_fields",
    "Dmr.C01_concat"
   ],
   "note": "any list of widths, any starting position; refinement of read_bits_int_be to bit slices of the whole buffer"
  },
  {
   "property": "C02",
   "status": "proved",
   "theorems": [
    "Dmr.C02_history",
    "Dmr.C02_bounds"
   ],
   "note": "any history of reads up to the first exception (a failed bit read leaves stale bits in the runtime)"
  },
  {
   "property": "C03",
   "status": "proved",
   "theorems": [
    "Dmr.C03_resolve",
    "Dmr.C03_recover",
    "Dmr.C03_distinct"
   ],
   "note": "all Enum classes of the library"
  },
  {
   "property": "C04",
   "status": "proved",
   "theorems": [
    "Dmr.C04_text",
    "Dmr.C04_roundtrip"
   ],
   "note": "ASCII, UTF-8, UTF-16LE, UTF-16BE as used by the library"
  },
  {
   "property": "C05",
   "status": "proved",
   "theorems": [
    "Dmr.Hytera.C05_radio_ip",
    "Dmr.Hytera.C05_short",
    "Dmr.Hytera.C05_text_injective",
    "Dmr.Hytera.C05_radio_id"
   ],
   "note": ""
  },
  {
   "property": "C06",
   "status": "proved",
   "theorems": [
    "Dmr.Hytera.C06_layout",
    "Dmr.Hytera.C06_partition",
    "Dmr.Hytera.C06_available"
   ],
   "note": ""
  },
  {
   "property": "C07",
   "status": "proved",
   "theorems": [
    "Dmr.Hytera.C07_layout",
    "Dmr.Hytera.C07_dispatch",
    "Dmr.Hytera.C07_short"
   ],
   "note": "layout in terms of Verif/Spec/Hytera.lean; independent cross-check by C47"
  },
  {
   "property": "C08",
   "status": "proved",
   "theorems": [
    "Dmr.Hytera.C08_history",
    "Dmr.Hytera.C08_standalone",
    "Dmr.Hytera.C08_in_hdap",
    "Dmr.Hytera.C08_in_hrnp",
    "Dmr.Hytera.C08_in_hstrp"
   ],
   "note": "includes the defect: inside a frame the opcode is that of the frame"
  },
  {
   "property": "C09",
   "status": "proved",
   "theorems": [
    "Dmr.Hytera.C09_layout",
    "Dmr.Hytera.C09_dispatch",
    "Dmr.Hytera.C09_in_hdap",
    "Dmr.Hytera.C09_in_hrnp",
    "Dmr.Hytera.C09_in_hstrp"
   ],
   "note": "includes the defect: inside a frame the service is that of the frame"
  },
  {
   "property": "C10",
   "status": "proved",
   "theorems": [
    "Dmr.Hytera.C10_layout",
    "Dmr.Hytera.C10_text",
    "Dmr.Hytera.C10_errors",
    "Dmr.Hytera.C10_ack"
   ],
   "note": ""
  },
  {
   "property": "C11",
   "status": "proved",
   "theorems": [
    "Dmr.Hytera.C11_layout",
    "Dmr.Hytera.C11_slice",
    "Dmr.Hytera.C11_request",
    "Dmr.Hytera.C11_answers"
   ],
   "note": ""
  },
  {
   "property": "C12",
   "status": "proved",
   "theorems": [
    "Dmr.Hytera.C12_layout"
   ],
   "note": ""
  },
  {
   "property": "C13",
   "status": "proved",
   "theorems": [
    "Dmr.Hytera.C13_layout"
   ],
   "note": ""
  },
  {
   "property": "C14",
   "status": "proved",
   "theorems": [
    "Dmr.Hytera.C14_layout",
    "Dmr.Hytera.C14_generic",
    "Dmr.Hytera.C14_broadcast",
    "Dmr.Hytera.C14_identification",
    "Dmr.Hytera.C14_dedicated"
   ],
   "note": ""
  },
  {
   "property": "C15",
   "status": "proved",
   "theorems": [
    "Dmr.Hytera.C15_layout",
    "Dmr.Hytera.C15_roundtrip",
    "Dmr.Hytera.C15_footer"
   ],
   "note": ""
  },
  {
   "property": "C16",
   "status": "proved",
   "theorems": [
    "Dmr.Hytera.C16_layout",
    "Dmr.Hytera.C16_data"
   ],
   "note": ""
  },
  {
   "property": "C17",
   "status": "proved",
   "theorems": [
    "Dmr.Hytera.C17_layout",
    "Dmr.Hytera.C17_accounting",
    "Dmr.Hytera.C17_terminates"
   ],
   "note": ""
  },
  {
   "property": "C18",
   "status": "proved",
   "theorems": [
    "Dmr.Hytera.C18_roundtrip",
    "Dmr.Hytera.C18_control",
    "Dmr.Hytera.C18_telemetry"
   ],
   "note": "C18_telemetry is the exception to the round trip"
  },
  {
   "property": "C19",
   "status": "proved",
   "theorems": [
    "Dmr.Hytera.C19_layout",
    "Dmr.Hytera.C19_accept"
   ],
   "note": ""
  },
  {
   "property": "C20",
   "status": "proved",
   "theorems": [
    "Dmr.Hytera.C20_value",
    "Dmr.Hytera.C20_history",
    "Dmr.Hytera.C20_again"
   ],
   "note": ""
  },
  {
   "property": "C21",
   "status": "proved",
   "theorems": [
    "Dmr.Hytera.C21_keepalive",
    "Dmr.Hytera.C21_pingpong",
    "Dmr.Hytera.C21_unknown"
   ],
   "note": ""
  },
  {
   "property": "C22",
   "status": "proved",
   "theorems": [
    "Dmr.Hytera.C22_errors",
    "Dmr.Hytera.C22_partition"
   ],
   "note": ""
  },
  {
   "property": "C23",
   "status": "proved",
   "theorems": [
    "Dmr.Etsi.C23_layout"
   ],
   "note": ""
  },
  {
   "property": "C24",
   "status": "proved",
   "theorems": [
    "Dmr.Etsi.C24_header",
    "Dmr.Etsi.C24_data",
    "Dmr.Etsi.C24_appended_blocks"
   ],
   "note": ""
  },
  {
   "property": "C25",
   "status": "proved",
   "theorems": [
    "Dmr.Etsi.C25_stable",
    "Dmr.Etsi.C25_short"
   ],
   "note": ""
  },
  {
   "property": "C26",
   "status": "proved",
   "theorems": [
    "Dmr.Etsi.C26_UdtLastBlock",
    "Dmr.Etsi.C26_Rate12Unconfirmed",
    "Dmr.Etsi.C26_Rate12LastBlockUnconfirmed",
    "Dmr.Etsi.C26_Rate12Confirmed",
    "Dmr.Etsi.C26_Rate12LastBlockConfirmed",
    "Dmr.Etsi.C26_Rate34Unconfirmed",
    "Dmr.Etsi.C26_Rate34LastBlockUnconfirmed",
    "Dmr.Etsi.C26_Rate34Confirmed",
    "Dmr.Etsi.C26_Rate34LastBlockConfirmed",
    "Dmr.Etsi.C26_Rate1Unconfirmed",
    "Dmr.Etsi.C26_Rate1LastBlockUnconfirmed",
    "Dmr.Etsi.C26_Rate1Confirmed",
    "Dmr.Etsi.C26_Rate1LastBlockConfirmed"
   ],
   "note": ""
  },
  {
   "property": "C27",
   "status": "proved",
   "theorems": [
    "Dmr.Etsi.C27_layout",
    "Dmr.Etsi.C27_partition"
   ],
   "note": ""
  },
  {
   "property": "C28",
   "status": "proved",
   "theorems": [
    "Dmr.Etsi.C28_supported",
    "Dmr.Etsi.C28_unsupported"
   ],
   "note": ""
  },
  {
   "property": "C29",
   "status": "proved",
   "theorems": [
    "Dmr.Homebrew.C29_dispatch",
    "Dmr.Homebrew.C29_login",
    "Dmr.Homebrew.C29_login_response",
    "Dmr.Homebrew.C29_master_closing",
    "Dmr.Homebrew.C29_master_not_accept",
    "Dmr.Homebrew.C29_repeater_pong",
    "Dmr.Homebrew.C29_master_ping",
    "Dmr.Homebrew.C29_master_repeater_ack",
    "Dmr.Homebrew.C29_configuration",
    "Dmr.Homebrew.C29_configuration_accept"
   ],
   "note": "RPTO is not routed by this class, as the theorem states"
  },
  {
   "property": "C30",
   "status": "proved",
   "theorems": [
    "Dmr.Homebrew.C30_dispatch",
    "Dmr.Homebrew.C30_login",
    "Dmr.Homebrew.C30_login_response",
    "Dmr.Homebrew.C30_master_closing",
    "Dmr.Homebrew.C30_master_not_accept",
    "Dmr.Homebrew.C30_repeater_ping",
    "Dmr.Homebrew.C30_master_pong",
    "Dmr.Homebrew.C30_master_repeater_ack",
    "Dmr.Homebrew.C30_beacon",
    "Dmr.Homebrew.C30_position",
    "Dmr.Homebrew.C30_talker_alias",
    "Dmr.Homebrew.C30_options",
    "Dmr.Homebrew.C30_configuration",
    "Dmr.Homebrew.C30_configuration_accept"
   ],
   "note": ""
  },
  {
   "property": "C31",
   "status": "proved",
   "theorems": [
    "Dmr.Homebrew.C31_homebrew",
    "Dmr.Homebrew.C31_mmdvm",
    "Dmr.Homebrew.C31_same"
   ],
   "note": ""
  },
  {
   "property": "C32",
   "status": "proved",
   "theorems": [
    "Dmr.Homebrew.C32_homebrew_closing",
    "Dmr.Homebrew.C32_homebrew_iff",
    "Dmr.Homebrew.C32_homebrew_high",
    "Dmr.Homebrew.C32_homebrew_safe_ids",
    "Dmr.Homebrew.C32_mmdvm_closing",
    "Dmr.Homebrew.C32_mmdvm_iff",
    "Dmr.Homebrew.C32_mmdvm_high",
    "Dmr.Homebrew.C32_mmdvm_safe_ids"
   ],
   "note": ""
  },
  {
   "property": "C33",
   "status": "proved",
   "theorems": [
    "Dmr.Motorola.C33_roundtrip",
    "Dmr.Motorola.C33_bound",
    "Dmr.Motorola.C33_leading_zero",
    "Dmr.Motorola.C33_injective"
   ],
   "note": ""
  },
  {
   "property": "C34",
   "status": "proved",
   "theorems": [
    "Dmr.Motorola.C34_uintvar",
    "Dmr.Motorola.C34_sintvar",
    "Dmr.Motorola.C34_shape"
   ],
   "note": ""
  },
  {
   "property": "C35",
   "status": "proved",
   "theorems": [
    "Dmr.Motorola.C35_negative",
    "Dmr.Motorola.C35_zero",
    "Dmr.Motorola.C35_positive_wrong",
    "Dmr.Motorola.C35_empty"
   ],
   "note": "C35_positive_wrong states the defect"
  },
  {
   "property": "C36",
   "status": "proved",
   "theorems": [
    "Dmr.Motorola.C36_fraction",
    "Dmr.Motorola.C36_unsigned_exact",
    "Dmr.Motorola.C36_signed_exact",
    "Dmr.Motorola.C36_sign",
    "Dmr.Motorola.C36_signed_positive_wrong",
    "Dmr.Motorola.C36_error",
    "Dmr.Motorola.C36_overflow",
    "Dmr.Motorola.C36_rounding",
    "Dmr.Motorola.C36_signed_rounding",
    "Dmr.Motorola.C36_limit",
    "Dmr.Motorola.C36_signed_limit",
    "Dmr.Motorola.C36_positive_rounding",
    "Dmr.Motorola.C36_signed_error"
   ],
   "note": "floats as exact rationals with a correctly rounding function on binary64"
  },
  {
   "property": "C37",
   "status": "proved",
   "theorems": [
    "Dmr.Motorola.C37_documents",
    "Dmr.Motorola.C37_one_document",
    "Dmr.Motorola.C37_only_eof",
    "Dmr.Motorola.C37_other_document",
    "Dmr.Motorola.C37_immediate_request"
   ],
   "note": "at most one document is read, as the theorems state"
  },
  {
   "property": "C38",
   "status": "proved",
   "theorems": [
    "Dmr.Motorola.C38_registration",
    "Dmr.Motorola.C38_registration_accounts",
    "Dmr.Motorola.C38_other",
    "Dmr.Motorola.C38_short"
   ],
   "note": ""
  },
  {
   "property": "C39",
   "status": "proved",
   "theorems": [
    "Dmr.Motorola.C39_text_plain",
    "Dmr.Motorola.C39_text_header",
    "Dmr.Motorola.C39_text_invalid",
    "Dmr.Motorola.C39_text_sequence_number",
    "Dmr.Motorola.C39_sequence_collision",
    "Dmr.Motorola.C39_acknowledgement",
    "Dmr.Motorola.C39_ack_sequence_number",
    "Dmr.Motorola.C39_availability",
    "Dmr.Motorola.C39_other",
    "Dmr.Motorola.C39_short"
   ],
   "note": ""
  },
  {
   "property": "C40",
   "status": "proved",
   "theorems": [
    "Dmr.C40_exceptions",
    "Dmr.C40_documented",
    "Dmr.C40_parts",
    "Dmr.C40_raised",
    "Dmr.C40_exact",
    "Dmr.C40_parts_raised"
   ],
   "note": "all protocol classes; table of exceptions per class"
  },
  {
   "property": "C41",
   "status": "proved",
   "theorems": [
    "Dmr.C41_trailing",
    "Dmr.C41_consumed"
   ],
   "note": "the classes in pduDecoders (123 sequential ones, telemetry, HDAP, HRNP); the others look at the end of the stream"
  },
  {
   "property": "C42",
   "status": "proved",
   "theorems": [
    "Dmr.C42_truncated",
    "Dmr.C42_prefix"
   ],
   "note": "the classes in pduDecoders"
  },
  {
   "property": "C43",
   "status": "proved",
   "theorems": [
    "Dmr.C43_equal_objects",
    "Dmr.C43_reconstruct",
    "Dmr.C43_from_bytes",
    "Dmr.C43_scope",
    "Dmr.C43_full_link_control",
    "Dmr.C43_full_link_control_cs5",
    "Dmr.C43_full_link_control_lost",
    "Dmr.C43_motorola_text",
    "Dmr.C43_motorola_text_lost",
    "Dmr.C43_motorola_text_rest"
   ],
   "note": "all protocol classes; the two exceptions are stated with exactly the bits they lose"
  },
  {
   "property": "C44",
   "status": "proved",
   "theorems": [
    "Dmr.Tools.C44_bytes",
    "Dmr.Tools.C44_bytearray",
    "Dmr.Tools.C44_involution"
   ],
   "note": ""
  },
  {
   "property": "C45",
   "status": "proved",
   "theorems": [
    "Dmr.Tools.C45_structure",
    "Dmr.Tools.C45_no_object",
    "Dmr.Tools.C45_no_dict",
    "Dmr.Tools.C45_library"
   ],
   "note": ""
  },
  {
   "property": "C46",
   "status": "proved",
   "theorems": [
    "Dmr.Tools.C46_hex",
    "Dmr.Tools.C46_message",
    "Dmr.Tools.C46_all_good",
    "Dmr.Tools.C46_first_bad",
    "Dmr.Tools.C46_cases",
    "Dmr.Tools.C46_usage"
   ],
   "note": "message arguments that do not begin with '-'"
  },
  {
   "property": "C47",
   "status": "proved",
   "theorems": [
    "Dmr.C47_from_bytes",
    "Dmr.C47_on_stream",
    "Dmr.C47_values",
    "Dmr.C47_parsed"
   ],
   "note": "28 files, 128 of the 139 nested types on any stream; the other 11 depend on their context and are proved in it (Verif/Ksy/Conform)"
  },
  {
   "property": "C48",
   "status": "proved",
   "theorems": [
    "Dmr.C48_position",
    "Dmr.C48_embedded",
    "Dmr.C48_application",
    "Dmr.C48_dependent"
   ],
   "note": "148 classes positive, 8 negative (counterexamples), HDAP other than telemetry positive"
  },
  {
   "property": "C49",
   "status": "proved",
   "theorems": [
    "Dmr.C49_in_turn",
    "Dmr.C49_cut"
   ],
   "note": ""
  },
  {
   "property": "C50",
   "status": "proved",
   "theorems": [
    "Dmr.C50_names",
    "Dmr.C50_values",
    "Dmr.C50_all"
   ],
   "note": ""
  },
  {
   "property": "C51",
   "status": "proved",
   "theorems": [
    "Dmr.Etsi.C51_csbk_unit_to_unit_voice_request",
    "Dmr.Etsi.C51_csbk_unit_to_unit_voice_answer",
    "Dmr.Etsi.C51_csbk_channel_timing",
    "Dmr.Etsi.C51_csbk_negative_ack_response",
    "Dmr.Etsi.C51_csbk_bs_outbound_activation",
    "Dmr.Etsi.C51_csbk_preamble",
    "Dmr.Etsi.C51_flc_group_voice_channel_user",
    "Dmr.Etsi.C51_flc_unit_to_unit_voice_channel_user",
    "Dmr.Etsi.C51_flc_talker_alias_header",
    "Dmr.Etsi.C51_flc_gps_info_lc_pdu",
    "Dmr.Etsi.C51_flc_talker_alias_continuation",
    "Dmr.Etsi.C51_flc_group_voice_channel_user_cs5",
    "Dmr.Etsi.C51_flc_unit_to_unit_voice_channel_user_cs5",
    "Dmr.Etsi.C51_flc_talker_alias_header_cs5",
    "Dmr.Etsi.C51_flc_gps_info_lc_pdu_cs5",
    "Dmr.Etsi.C51_flc_talker_alias_continuation_cs5",
    "Dmr.Etsi.C51_data_header_udt",
    "Dmr.Etsi.C51_data_header_response",
    "Dmr.Etsi.C51_data_header_unconfirmed",
    "Dmr.Etsi.C51_data_header_confirmed",
    "Dmr.Etsi.C51_data_header_short_defined",
    "Dmr.Etsi.C51_data_header_short_status_precoded",
    "Dmr.Etsi.C51_data_header_proprietary",
    "Dmr.Etsi.C51_block_rate1_last_block_unconfirmed",
    "Dmr.Etsi.C51_block_rate12_last_block_confirmed",
    "Dmr.Etsi.C51_block_rate12_confirmed",
    "Dmr.Etsi.C51_block_rate34_last_block_unconfirmed",
    "Dmr.Etsi.C51_block_rate1_last_block_confirmed",
    "Dmr.Etsi.C51_block_rate1_unconfirmed",
    "Dmr.Etsi.C51_block_udt_last_block",
    "Dmr.Etsi.C51_block_rate34_confirmed",
    "Dmr.Etsi.C51_block_rate34_last_block_confirmed",
    "Dmr.Etsi.C51_block_rate34_unconfirmed",
    "Dmr.Etsi.C51_block_rate12_last_block_unconfirmed",
    "Dmr.Etsi.C51_block_rate1_confirmed",
    "Dmr.Etsi.C51_block_rate12_unconfirmed",
    "Dmr.Etsi.C51_data_header_short_raw",
    "Dmr.Etsi.C51_udp_ipv4_compressed",
    "Dmr.Homebrew.C51_homebrew2015_dmr_data",
    "Dmr.Homebrew.C51_mmdvm2020_dmr_data",
    "Dmr.Homebrew.C51_mmdvm2020_position",
    "Dmr.Homebrew.C51_homebrew2015_configuration",
    "Dmr.Homebrew.C51_mmdvm2020_configuration",
    "Dmr.Hytera.C51_rtp"
   ],
   "note": "encoders for ARS, Motorola text messages, HDAP, HRNP and HSTRP are in C15-C18, C38, C39"
  },
  {
   "property": "C52",
   "status": "proved",
   "theorems": [
    "Dmr.Wire.C52_location",
    "Dmr.Wire.C52_delivery",
    "Dmr.Wire.C52_registration",
    "Dmr.Wire.C52_transmit",
    "Dmr.Wire.C52_control",
    "Dmr.Wire.C52_text",
    "Dmr.Wire.C52_telemetry",
    "Dmr.Wire.C52_frame",
    "Dmr.Wire.C52_hrnp",
    "Dmr.Wire.C52_hstrp"
   ],
   "note": ""
  },
  {
   "property": "C53",
   "status": "proved",
   "theorems": [
    "Dmr.Wire.C53_location",
    "Dmr.Wire.C53_registration",
    "Dmr.Wire.C53_delivery",
    "Dmr.Wire.C53_telemetry",
    "Dmr.Wire.C53_transmit",
    "Dmr.Wire.C53_control",
    "Dmr.Wire.C53_text",
    "Dmr.Wire.C53_frame",
    "Dmr.Wire.C53_hrnp",
    "Dmr.Wire.C53_hstrp",
    "Dmr.Wire.C53_ipsc",
    "Dmr.Wire.C53_heartbeat",
    "Dmr.Wire.C53_rtp"
   ],
   "note": ""
  },
  {
   "property": "C54",
   "status": "proved",
   "theorems": [
    "Dmr.C54_consumed",
    "Dmr.C54_packet"
   ],
   "note": "the object as built by the constructor; properties evaluated later (and their caches) are not counted"
  },
  {
   "property": "C55",
   "status": "proved",
   "theorems": [
    "Dmr.C55_interleaved",
    "Dmr.C55_decoded"
   ],
   "note": "Homebrew packets decoded from the beginning of their stream; an access that raises may move the stream (example)"
  },
  {
   "property": "C56",
   "status": "proved",
   "theorems": [
    "Dmr.C56_final",
    "Dmr.C56_pieces",
    "Dmr.C56_messages",
    "Dmr.C56_empty",
    "Dmr.Py.C56_source_empty",
    "Dmr.Py.C56_source_final",
    "Dmr.Py.C56_source_pieces",
    "Dmr.Py.C56_source_messages"
   ],
   "note": "EOFError does not promise that a continuation is accepted (a wrong magic may only be noticed when all its bytes are there)"
  },
  {
   "property": "C57",
   "status": "proved",
   "theorems": [
    "Dmr.Wire.C57_csbk",
    "Dmr.Wire.C57_flc",
    "Dmr.Wire.C57_data_header",
    "Dmr.Wire.C57_udp",
    "Dmr.Wire.C57_block_rate1_last_block_unconfirmed",
    "Dmr.Wire.C57_block_rate12_last_block_confirmed",
    "Dmr.Wire.C57_block_rate12_confirmed",
    "Dmr.Wire.C57_block_rate34_last_block_unconfirmed",
    "Dmr.Wire.C57_block_rate1_last_block_confirmed",
    "Dmr.Wire.C57_block_rate1_unconfirmed",
    "Dmr.Wire.C57_block_udt_last_block",
    "Dmr.Wire.C57_block_rate34_confirmed",
    "Dmr.Wire.C57_block_rate34_last_block_confirmed",
    "Dmr.Wire.C57_block_rate34_unconfirmed",
    "Dmr.Wire.C57_block_rate12_last_block_unconfirmed",
    "Dmr.Wire.C57_block_rate1_confirmed",
    "Dmr.Wire.C57_block_rate12_unconfirmed",
    "Dmr.Wire.C57_header_short_raw",
    "Dmr.Wire.C57_homebrew",
    "Dmr.Wire.C57_mmdvm",
    "Dmr.Wire.C57_ars",
    "Dmr.Wire.C57_motorola_text",
    "Dmr.Wire.C57_binary_xml"
   ],
   "note": ""
  },
  {
   "property": "C58",
   "status": "proved",
   "theorems": [
    "Dmr.C58_every_class",
    "Dmr.C58_returns",
    "Dmr.C58_raises",
    "Dmr.C58_models",
    "Dmr.C58_dependent",
    "Dmr.C58_exceptions"
   ],
   "note": "156 classes agree with their models, 11 raise on their own; the models are the decoders of the other claims (C58_models)"
  },
  {
   "property": "C59",
   "status": "proved",
   "theorems": [
    "Dmr.C59_navigation"
   ],
   "note": ""
  },
  {
   "property": "C60",
   "status": "proved",
   "theorems": [
    "Dmr.Py.C60_access",
    "Dmr.Py.C60_schedule",
    "Dmr.Py.C60_decoded",
    "Dmr.Py.C60_packet",
    "Dmr.Py.C60_every_property"
   ],
   "note": "after decoding, for all objects that were read from the stream (Homebrew packets: from its beginning); C60_every_property: the source has no other properties"
  },
  {
   "property": "C61",
   "status": "proved",
   "theorems": [
    "Dmr.Script.C61_uintvar",
    "Dmr.Script.C61_clear_msb",
    "Dmr.Script.C61_sintvar",
    "Dmr.Script.C61_ufloatvar",
    "Dmr.Script.C61_sfloatvar",
    "Dmr.Script.C61_byteswap_bytes",
    "Dmr.Script.C61_byteswap_bytearray"
   ],
   "note": "the functions of the source files themselves; the results are stated without the models"
  },
  {
   "property": "C62",
   "status": "proved",
   "theorems": [
    "Dmr.Script.C62_prettyprint",
    "Dmr.Script.C62_print_decoded",
    "Dmr.Script.C62_print_rejected",
    "Dmr.Script.C62_all_good",
    "Dmr.Script.C62_first_bad",
    "Dmr.Script.C62_usage",
    "Dmr.Script.C62_impl",
    "Dmr.Script.C62_impl_first_bad",
    "Dmr.Script.C62_every_command"
   ],
   "note": "words beginning with a dash are options for argparse and not modelled; C62_every_command: there are no other commands"
  },
  {
   "property": "C63",
   "status": "proved",
   "theorems": [
    "Dmr.C63_returns",
    "Dmr.C63_raises",
    "Dmr.C63_trailing",
    "Dmr.C63_truncated",
    "Dmr.C63_position",
    "Dmr.C63_in_turn",
    "Dmr.C63_cut"
   ],
   "note": "the eleven nested classes that cannot be used alone (C58_dependent) are not in the lists; trailing bytes and truncation for the 126 classes of C41, position for the 148 of C48, sequences for the 123 of C49"
  },
  {
   "property": "C64",
   "status": "proved",
   "theorems": [
    "Dmr.C64_gives",
    "Dmr.C64_some",
    "Dmr.C64_lossless"
   ],
   "note": "the 156 classes with a model; the eleven that cannot be used alone never return (C58_dependent)"
  },
  {
   "property": "C65",
   "status": "proved",
   "theorems": [
    "Dmr.Wire.C65_property",
    "Dmr.Wire.C65_data_header",
    "Dmr.Wire.C65_radio_ip_radio_id",
    "Dmr.Wire.C65_radio_ip_text",
    "Dmr.Wire.C65_radio_id",
    "Dmr.Wire.C65_gps_available",
    "Dmr.Wire.C65_datetimestring",
    "Dmr.Wire.C65_intervalstring",
    "Dmr.Wire.C65_radio_ip",
    "Dmr.Wire.C65_gpsdata",
    "Dmr.Wire.C65_location",
    "Dmr.Wire.C65_registration",
    "Dmr.Wire.C65_delivery",
    "Dmr.Wire.C65_telemetry",
    "Dmr.Wire.C65_transmit",
    "Dmr.Wire.C65_control",
    "Dmr.Wire.C65_text",
    "Dmr.Wire.C65_frame",
    "Dmr.Wire.C65_hrnp",
    "Dmr.Wire.C65_hstrp",
    "Dmr.Wire.C65_ipsc",
    "Dmr.Wire.C65_heartbeat",
    "Dmr.Wire.C65_rtp",
    "Dmr.Wire.C65_csbk",
    "Dmr.Wire.C65_flc",
    "Dmr.Wire.C65_udp",
    "Dmr.Wire.C65_block_rate1_last_block_unconfirmed",
    "Dmr.Wire.C65_block_rate12_last_block_confirmed",
    "Dmr.Wire.C65_block_rate12_confirmed",
    "Dmr.Wire.C65_block_rate34_last_block_unconfirmed",
    "Dmr.Wire.C65_block_rate1_last_block_confirmed",
    "Dmr.Wire.C65_block_rate1_unconfirmed",
    "Dmr.Wire.C65_block_udt_last_block",
    "Dmr.Wire.C65_block_rate34_confirmed",
    "Dmr.Wire.C65_block_rate34_last_block_confirmed",
    "Dmr.Wire.C65_block_rate34_unconfirmed",
    "Dmr.Wire.C65_block_rate12_last_block_unconfirmed",
    "Dmr.Wire.C65_block_rate1_confirmed",
    "Dmr.Wire.C65_block_rate12_unconfirmed",
    "Dmr.Wire.C65_header_short_raw",
    "Dmr.Wire.C65_homebrew",
    "Dmr.Wire.C65_mmdvm",
    "Dmr.Wire.C65_ars",
    "Dmr.Wire.C65_motorola_text",
    "Dmr.Wire.C65_binary_xml"
   ],
   "note": "40 equivalences for classes, C65_data_header for the property data, C65_property for all properties with values without parts"
  },
  {
   "property": "C66",
   "status": "proved",
   "theorems": [
    "Dmr.C66_memory",
    "Dmr.C66_stream"
   ],
   "note": "the objects made by the constructor; a property evaluated later may add objects (C60)"
  },
  {
   "property": "C67",
   "status": "proved",
   "theorems": [
    "Dmr.Py.C67_kept",
    "Dmr.Py.C67_once"
   ],
   "note": "not for the auxiliary attribute _raw__m_data, which a failed DmrDataHeader.data leaves behind; a property that gives None is evaluated again"
  },
  {
   "property": "C68",
   "status": "proved",
   "theorems": [
    "Dmr.Py.C68_same",
    "Dmr.Py.C68_construct",
    "Dmr.Py.C68_from_bytes",
    "Dmr.Py.C68_without_loops",
    "Dmr.Py.C68_property"
   ],
   "note": "steps are evaluated expressions and executed statements; the work inside a primitive (copying the bytes of a read, decoding a text) is not counted"
  },
  {
   "property": "C69",
   "status": "proved",
   "theorems": [
    "Dmr.Py.C69_returns",
    "Dmr.Py.C69_raises",
    "Dmr.Py.C69_apart",
    "Dmr.Py.C69_old",
    "Dmr.Py.C69_ends",
    "Dmr.Py.C69_from_bytes_ends",
    "Dmr.Py.C69_from_bytes",
    "Dmr.Py.C69_decodes"
   ],
   "note": "each access to the shared memory is one indivisible step (as under the interpreter lock); threads are given plain arguments, so they do not share a stream or an object to begin with; what two threads do to one stream is outside"
  },
  {
   "property": "C70",
   "status": "proved",
   "theorems": [
    "Dmr.Py.C70_shared",
    "Dmr.Py.C70_ends",
    "Dmr.Py.C70_after",
    "Dmr.Py.C70_packet",
    "Dmr.Py.C70_race"
   ],
   "note": "each access to the shared memory is one indivisible step; for the properties opcode, len_padding_if_exists, data and fifth_letter of a freshly decoded object it is false (C70_race)"
  },
  {
   "property": "C71",
   "status": "proved",
   "theorems": [
    "Dmr.Py.C71_teams",
    "Dmr.Py.C71_old",
    "Dmr.Py.C71_alone",
    "Dmr.Py.C71_answers",
    "Dmr.Py.C71_meaning",
    "Dmr.Py.C71_packet",
    "Dmr.Py.C71_shared"
   ],
   "note": "each access to the shared memory is one indivisible step; addresses cannot be seen, so `x is y` is not a request; what is taken over is not copied, so programs that take over share objects and streams"
  },
  {
   "property": "C72",
   "status": "proved",
   "theorems": [
    "Dmr.Homebrew.C72_same",
    "Dmr.Homebrew.C72_configuration",
    "Dmr.Homebrew.C72_ping",
    "Dmr.Homebrew.C72_only",
    "Dmr.Homebrew.C72_agree",
    "Dmr.Homebrew.C72_source"
   ],
   "note": ""
  },
  {
   "property": "C73",
   "status": "proved",
   "theorems": [
    "Dmr.C73_apart",
    "Dmr.C73_otherwise",
    "Dmr.C73_marked",
    "Dmr.C73_homebrew"
   ],
   "note": ""
  },
  {
   "property": "C74",
   "status": "proved",
   "theorems": [
    "Dmr.Py.C74_nesting",
    "Dmr.Py.C74_decoder",
    "Dmr.Py.C74_property",
    "Dmr.Py.C74_sharp"
   ],
   "note": ""
  },
  {
   "property": "C75",
   "status": "proved",
   "theorems": [
    "Dmr.Wire.C75_location",
    "Dmr.Wire.C75_registration",
    "Dmr.Wire.C75_delivery",
    "Dmr.Wire.C75_telemetry",
    "Dmr.Wire.C75_hrnp",
    "Dmr.Wire.C75_frame",
    "Dmr.Wire.C75_ars",
    "Dmr.Wire.C75_motorola_text",
    "Dmr.Wire.C75_flc",
    "Dmr.Wire.C75_flc_embedded",
    "Dmr.Wire.C75_data_header",
    "Dmr.Wire.C75_UdtLastBlock",
    "Dmr.Wire.C75_Rate12LastBlockUnconfirmed",
    "Dmr.Wire.C75_Rate12LastBlockConfirmed",
    "Dmr.Wire.C75_Rate34LastBlockUnconfirmed",
    "Dmr.Wire.C75_Rate34LastBlockConfirmed",
    "Dmr.Wire.C75_Rate1LastBlockUnconfirmed",
    "Dmr.Wire.C75_Rate1LastBlockConfirmed",
    "Dmr.Wire.C75_Rate12Confirmed_crc9",
    "Dmr.Wire.C75_Rate12LastBlockConfirmed_crc9",
    "Dmr.Wire.C75_Rate34Confirmed_crc9",
    "Dmr.Wire.C75_Rate34LastBlockConfirmed_crc9",
    "Dmr.Wire.C75_Rate1Confirmed_crc9",
    "Dmr.Wire.C75_Rate1LastBlockConfirmed_crc9",
    "Dmr.Wire.C75_rejected",
    "Dmr.Wire.C75_hrnp_rejected",
    "Dmr.Wire.C75_transmit_matters",
    "Dmr.Wire.C75_control_matters",
    "Dmr.Wire.C75_text_matters",
    "Dmr.Wire.C75_hstrp_sequence",
    "Dmr.Wire.C75_hstrp",
    "Dmr.Wire.C75_flc_unknown",
    "Dmr.Wire.C75_flc_unknown_both",
    "Dmr.Wire.C75_flc_unknown_embedded"
   ],
   "note": ""
  },
  {
   "property": "C76",
   "status": "proved",
   "theorems": [
    "Dmr.Wire.C76_position"
   ],
   "note": ""
  },
  {
   "property": "C77",
   "status": "proved",
   "theorems": [
    "Dmr.Py.C77_from_bytes",
    "Dmr.Py.C77_clients",
    "Dmr.Py.C77_reached"
   ],
   "note": ""
  },
  {
   "property": "C78",
   "status": "proved",
   "theorems": [
    "Dmr.Py.C78_from_bytes",
    "Dmr.Py.C78_constructor",
    "Dmr.Py.C78_getattr",
    "Dmr.Py.C78_data",
    "Dmr.Py.C78_session",
    "Dmr.Py.C78_they_differ"
   ],
   "note": ""
  },
  {
   "property": "C79",
   "status": "proved",
   "theorems": [
    "Dmr.Py.Imports.C79_any_order",
    "Dmr.Py.Imports.C79_order_free",
    "Dmr.Py.Imports.C79_run_once",
    "Dmr.Py.Imports.C79_classes",
    "Dmr.Py.Imports.C79_packages",
    "Dmr.Py.Imports.C79_shared",
    "Dmr.Py.Imports.C79_names_found",
    "Dmr.Py.Imports.C79_old_api"
   ],
   "note": ""
  }
 ]
}