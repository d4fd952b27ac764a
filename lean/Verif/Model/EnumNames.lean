import Verif.Model.Hytera.DataDeliveryStates
import Verif.Model.Hytera.DataTransmitProtocol
import Verif.Model.Hytera.HyteraDmrApplicationProtocol
import Verif.Model.Hytera.HyteraRadioNetworkProtocol
import Verif.Model.Hytera.HyteraSimpleTransportReliabilityProtocol
import Verif.Model.Hytera.IpSiteConnectProtocol
import Verif.Model.Hytera.LocationProtocol
import Verif.Model.Hytera.RadioControlProtocol
import Verif.Model.Hytera.RadioRegistrationService
import Verif.Model.Hytera.RealTimeTransportProtocol
import Verif.Model.Hytera.TelemetryProtocol
import Verif.Model.Hytera.TextMessageProtocol
import Verif.Model.Etsi.DmrCsbk
import Verif.Model.Etsi.DmrDataHeader
import Verif.Model.Etsi.DmrIpUdp
import Verif.Model.Etsi.FullLinkControl
import Verif.Model.Homebrew.Homebrew2015
import Verif.Model.Homebrew.Mmdvm2020
import Verif.Model.Motorola.AutomaticRegistrationService
import Verif.Model.Motorola.MotorolaBinaryXml
import Verif.Model.Motorola.TextMessageProtocol
/-
Names of the members of every `class ...(Enum)` of the library (generated by tools/mkenumnames.py from the Python source).
-/

namespace Dmr

/-- okdmr/kaitai/hytera/data_delivery_states.py:19-23 names of the members of `StateTypes`. -/
def Hytera.DataDeliveryStates.StateTypes.pyName : Hytera.DataDeliveryStates.StateTypes → String
  | .location_protocol_state => "location_protocol_state"
  | .radio_registration_service_state => "radio_registration_service_state"
  | .telemetry_protocol_state => "telemetry_protocol_state"
  | .data_transmit_protocol_state => "data_transmit_protocol_state"

/-- okdmr/kaitai/hytera/data_delivery_states.py:25-34 names of the members of `Results`. -/
def Hytera.DataDeliveryStates.Results.pyName : Hytera.DataDeliveryStates.Results → String
  | .ok => "ok"
  | .fail => "fail"
  | .limited_timeout => "limited_timeout"
  | .no_ack => "no_ack"
  | .error_ack => "error_ack"
  | .repeater_wakeup_fail => "repeater_wakeup_fail"
  | .tx_interrupted => "tx_interrupted"
  | .tx_deny => "tx_deny"
  | .invalid_params => "invalid_params"

/-- okdmr/kaitai/hytera/data_transmit_protocol.py:19-20 names of the members of `ServiceTypes`. -/
def Hytera.DataTransmitProtocol.ServiceTypes.pyName : Hytera.DataTransmitProtocol.ServiceTypes → String
  | .data_transmit_protocol => "data_transmit_protocol"

/-- okdmr/kaitai/hytera/data_transmit_protocol.py:22-28 names of the members of `ServiceSpecificTypes`. -/
def Hytera.DataTransmitProtocol.ServiceSpecificTypes.pyName : Hytera.DataTransmitProtocol.ServiceSpecificTypes → String
  | .dtp_request => "dtp_request"
  | .data_slice_transmit => "data_slice_transmit"
  | .last_data_slice => "last_data_slice"
  | .dtp_answer => "dtp_answer"
  | .data_slice_answer => "data_slice_answer"
  | .last_data_slice_answer => "last_data_slice_answer"

/-- okdmr/kaitai/hytera/data_transmit_protocol.py:30-32 names of the members of `Results`. -/
def Hytera.DataTransmitProtocol.Results.pyName : Hytera.DataTransmitProtocol.Results → String
  | .success => "success"
  | .failure => "failure"

/-- okdmr/kaitai/hytera/hytera_dmr_application_protocol.py:25-32 names of the members of `MessageHeaderTypes`. -/
def Hytera.HyteraDmrApplicationProtocol.MessageHeaderTypes.pyName : Hytera.HyteraDmrApplicationProtocol.MessageHeaderTypes → String
  | .radio_control_protocol => "radio_control_protocol"
  | .location_protocol => "location_protocol"
  | .text_message_protocol => "text_message_protocol"
  | .radio_registration => "radio_registration"
  | .telemetry_protocol => "telemetry_protocol"
  | .data_transmit_protocol => "data_transmit_protocol"
  | .data_delivery_states => "data_delivery_states"

/-- okdmr/kaitai/hytera/hytera_radio_network_protocol.py:19-26 names of the members of `Opcodes`. -/
def Hytera.HyteraRadioNetworkProtocol.Opcodes.pyName : Hytera.HyteraRadioNetworkProtocol.Opcodes → String
  | .data => "data"
  | .data_ack => "data_ack"
  | .close_ack => "close_ack"
  | .close => "close"
  | .reject => "reject"
  | .accept => "accept"
  | .connect => "connect"

/-- okdmr/kaitai/hytera/hytera_simple_transport_reliability_protocol.py:19-22 names of the members of `OptionCommands`. -/
def Hytera.HyteraSimpleTransportReliabilityProtocol.OptionCommands.pyName : Hytera.HyteraSimpleTransportReliabilityProtocol.OptionCommands → String
  | .realtime => "realtime"
  | .device_id => "device_id"
  | .channel_id => "channel_id"

/-- okdmr/kaitai/hytera/ip_site_connect_protocol.py:18-22 names of the members of `PacketTypes`. -/
def Hytera.IpSiteConnectProtocol.PacketTypes.pyName : Hytera.IpSiteConnectProtocol.PacketTypes → String
  | .pi_header => "pi_header"
  | .a => "a"
  | .b => "b"
  | .terminator => "terminator"

/-- okdmr/kaitai/hytera/ip_site_connect_protocol.py:24-30 names of the members of `FrameTypes`. -/
def Hytera.IpSiteConnectProtocol.FrameTypes.pyName : Hytera.IpSiteConnectProtocol.FrameTypes → String
  | .frame_type_data => "frame_type_data"
  | .frame_type_voice_sync => "frame_type_voice_sync"
  | .frame_type_data_sync_or_csbk => "frame_type_data_sync_or_csbk"
  | .frame_type_data_header => "frame_type_data_header"
  | .frame_type_voice => "frame_type_voice"
  | .frame_type_sync => "frame_type_sync"

/-- okdmr/kaitai/hytera/ip_site_connect_protocol.py:32-36 names of the members of `CallTypes`. -/
def Hytera.IpSiteConnectProtocol.CallTypes.pyName : Hytera.IpSiteConnectProtocol.CallTypes → String
  | .private_call => "private_call"
  | .group_call => "group_call"
  | .wakeup_call_2 => "wakeup_call_2"
  | .wakeup_call_c => "wakeup_call_c"

/-- okdmr/kaitai/hytera/ip_site_connect_protocol.py:38-53 names of the members of `SlotTypes`. -/
def Hytera.IpSiteConnectProtocol.SlotTypes.pyName : Hytera.IpSiteConnectProtocol.SlotTypes → String
  | .slot_type_privacy_indicator => "slot_type_privacy_indicator"
  | .slot_type_voice_lc_header => "slot_type_voice_lc_header"
  | .slot_type_terminator_with_lc => "slot_type_terminator_with_lc"
  | .slot_type_csbk => "slot_type_csbk"
  | .slot_type_data_header => "slot_type_data_header"
  | .slot_type_rate_12_data => "slot_type_rate_12_data"
  | .slot_type_rate_34_data => "slot_type_rate_34_data"
  | .slot_type_data_a => "slot_type_data_a"
  | .slot_type_data_b => "slot_type_data_b"
  | .slot_type_data_c => "slot_type_data_c"
  | .slot_type_data_d => "slot_type_data_d"
  | .slot_type_data_e => "slot_type_data_e"
  | .slot_type_data_f => "slot_type_data_f"
  | .slot_type_wakeup_request => "slot_type_wakeup_request"
  | .slot_type_sync => "slot_type_sync"

/-- okdmr/kaitai/hytera/ip_site_connect_protocol.py:55-57 names of the members of `Timeslots`. -/
def Hytera.IpSiteConnectProtocol.Timeslots.pyName : Hytera.IpSiteConnectProtocol.Timeslots → String
  | .timeslot_1 => "timeslot_1"
  | .timeslot_2 => "timeslot_2"

/-- okdmr/kaitai/hytera/location_protocol.py:22-24 names of the members of `CmdTypes`. -/
def Hytera.LocationProtocol.CmdTypes.pyName : Hytera.LocationProtocol.CmdTypes → String
  | .cancel_request => "cancel_request"
  | .start_request => "start_request"

/-- okdmr/kaitai/hytera/location_protocol.py:26-44 names of the members of `LpSpecificTypes`. -/
def Hytera.LocationProtocol.LpSpecificTypes.pyName : Hytera.LocationProtocol.LpSpecificTypes → String
  | .standard_request => "standard_request"
  | .standard_answer => "standard_answer"
  | .standard_answer_with_rssi => "standard_answer_with_rssi"
  | .standard_answer_gps_bt => "standard_answer_gps_bt"
  | .emergency_report_stop_request => "emergency_report_stop_request"
  | .emergency_report_stop_answer => "emergency_report_stop_answer"
  | .emergency_report => "emergency_report"
  | .triggered_report_request => "triggered_report_request"
  | .triggered_report_answer => "triggered_report_answer"
  | .triggered_report => "triggered_report"
  | .triggered_report_stop_request => "triggered_report_stop_request"
  | .triggered_report_stop_answer => "triggered_report_stop_answer"
  | .condition_report_request => "condition_report_request"
  | .condition_report_answer => "condition_report_answer"
  | .condition_report => "condition_report"
  | .condition_report_with_rssi => "condition_report_with_rssi"
  | .condition_quick_gps_request => "condition_quick_gps_request"
  | .condition_quick_gps_answer => "condition_quick_gps_answer"

/-- okdmr/kaitai/hytera/location_protocol.py:46-51 names of the members of `LpGeneralTypes`. -/
def Hytera.LocationProtocol.LpGeneralTypes.pyName : Hytera.LocationProtocol.LpGeneralTypes → String
  | .standard_location_immediate_service => "standard_location_immediate_service"
  | .emergency_location_reporting_service => "emergency_location_reporting_service"
  | .triggered_location_reporting_service => "triggered_location_reporting_service"
  | .condition_triggered_reporting_service => "condition_triggered_reporting_service"
  | .rssi_report_configuring_service => "rssi_report_configuring_service"

/-- okdmr/kaitai/hytera/location_protocol.py:53-58 names of the members of `TriggerTypes`. -/
def Hytera.LocationProtocol.TriggerTypes.pyName : Hytera.LocationProtocol.TriggerTypes → String
  | .cancel_request => "cancel_request"
  | .distance => "distance"
  | .time => "time"
  | .distance_and_time => "distance_and_time"
  | .distance_or_time => "distance_or_time"

/-- okdmr/kaitai/hytera/location_protocol.py:60-63 names of the members of `ResultCodes`. -/
def Hytera.LocationProtocol.ResultCodes.pyName : Hytera.LocationProtocol.ResultCodes → String
  | .ok => "ok"
  | .position_method_failure => "position_method_failure"
  | .request_format_error => "request_format_error"

/-- okdmr/kaitai/hytera/radio_control_protocol.py:17-77 names of the members of `ServiceTypes`. -/
def Hytera.RadioControlProtocol.ServiceTypes.pyName : Hytera.RadioControlProtocol.ServiceTypes → String
  | .radio_identification_request => "radio_identification_request"
  | .button_and_keyboard_operation_request => "button_and_keyboard_operation_request"
  | .internal_external_mic_enable_disable_request => "internal_external_mic_enable_disable_request"
  | .internal_external_mic_gain_check_control_request => "internal_external_mic_gain_check_control_request"
  | .internal_external_speaker_enable_disable_request => "internal_external_speaker_enable_disable_request"
  | .volume_check_control_request => "volume_check_control_request"
  | .radio_configure_over_air_request => "radio_configure_over_air_request"
  | .zone_and_channel_operation_request => "zone_and_channel_operation_request"
  | .radio_connect_login_request => "radio_connect_login_request"
  | .radio_connect_logout_request => "radio_connect_logout_request"
  | .channel_status_or_param_check_request => "channel_status_or_param_check_request"
  | .function_status_check_request => "function_status_check_request"
  | .function_enable_disable_request => "function_enable_disable_request"
  | .channel_alias_request => "channel_alias_request"
  | .radio_message_query_request => "radio_message_query_request"
  | .channel_number_of_zone_request => "channel_number_of_zone_request"
  | .update_authentication_key_request => "update_authentication_key_request"
  | .radio_id_and_radio_ip_query_request => "radio_id_and_radio_ip_query_request"
  | .radio_check => "radio_check"
  | .remote_monitor => "remote_monitor"
  | .allert_call => "allert_call"
  | .call_request => "call_request"
  | .remove_radio_request => "remove_radio_request"
  | .delete_subject_line_message_request => "delete_subject_line_message_request"
  | .radio_disable => "radio_disable"
  | .radio_enable => "radio_enable"
  | .radio_status_configure_request => "radio_status_configure_request"
  | .broadcast_status_configuration_request => "broadcast_status_configuration_request"
  | .button_and_keyboard_operation_reply => "button_and_keyboard_operation_reply"
  | .internal_external_mic_enable_disable_reply => "internal_external_mic_enable_disable_reply"
  | .internal_external_mic_gain_check_control_reply => "internal_external_mic_gain_check_control_reply"
  | .internal_external_speaker_enable_disable_reply => "internal_external_speaker_enable_disable_reply"
  | .volume_check_control_reply => "volume_check_control_reply"
  | .radio_configure_over_air_reply => "radio_configure_over_air_reply"
  | .zone_and_channel_operation_reply => "zone_and_channel_operation_reply"
  | .radio_status_configure_reply => "radio_status_configure_reply"
  | .broadcast_status_configuration_reply => "broadcast_status_configuration_reply"
  | .radio_connect_login_reply => "radio_connect_login_reply"
  | .radio_connect_logout_reply => "radio_connect_logout_reply"
  | .channel_status_or_param_check_reply => "channel_status_or_param_check_reply"
  | .function_status_check_reply => "function_status_check_reply"
  | .function_enable_disable_reply => "function_enable_disable_reply"
  | .channel_alias_reply => "channel_alias_reply"
  | .radio_message_query_reply => "radio_message_query_reply"
  | .radio_identification_reply => "radio_identification_reply"
  | .channel_number_of_zone_reply => "channel_number_of_zone_reply"
  | .update_authentication_key_reply => "update_authentication_key_reply"
  | .radio_id_and_radio_ip_query_reply => "radio_id_and_radio_ip_query_reply"
  | .radio_check_ack => "radio_check_ack"
  | .remote_monitor_ack => "remote_monitor_ack"
  | .alert_call_ack => "alert_call_ack"
  | .call_reply => "call_reply"
  | .remove_radio_reply => "remove_radio_reply"
  | .delete_subject_line_message_reply => "delete_subject_line_message_reply"
  | .radio_disable_ack => "radio_disable_ack"
  | .radio_enable_ack => "radio_enable_ack"
  | .radio_status_report => "radio_status_report"
  | .broadcast_transmit_status => "broadcast_transmit_status"
  | .repeater_broadcast_transmit_status => "repeater_broadcast_transmit_status"
  | .broadcast_receive_status => "broadcast_receive_status"

/-- okdmr/kaitai/hytera/radio_control_protocol.py:79-88 names of the members of `CallTypes`. -/
def Hytera.RadioControlProtocol.CallTypes.pyName : Hytera.RadioControlProtocol.CallTypes → String
  | .private_call => "private_call"
  | .group_call => "group_call"
  | .all_call => "all_call"
  | .emergency_group_call => "emergency_group_call"
  | .remote_monitor_call => "remote_monitor_call"
  | .reserved => "reserved"
  | .priority_private_call => "priority_private_call"
  | .priority_group_call => "priority_group_call"
  | .priority_all_call => "priority_all_call"

/-- okdmr/kaitai/hytera/radio_control_protocol.py:90-92 names of the members of `ReplyResults`. -/
def Hytera.RadioControlProtocol.ReplyResults.pyName : Hytera.RadioControlProtocol.ReplyResults → String
  | .success => "success"
  | .failure => "failure"

/-- okdmr/kaitai/hytera/radio_registration_service.py:19-24 names of the members of `RrsTypes`. -/
def Hytera.RadioRegistrationService.RrsTypes.pyName : Hytera.RadioRegistrationService.RrsTypes → String
  | .de_registration => "de_registration"
  | .online_check => "online_check"
  | .registration => "registration"
  | .registration_ack => "registration_ack"
  | .online_check_ack => "online_check_ack"

/-- okdmr/kaitai/hytera/real_time_transport_protocol.py:20-22 names of the members of `RtpPayloadTypes`. -/
def Hytera.RealTimeTransportProtocol.RtpPayloadTypes.pyName : Hytera.RealTimeTransportProtocol.RtpPayloadTypes → String
  | .mu_law => "mu_law"
  | .a_law => "a_law"

/-- okdmr/kaitai/hytera/real_time_transport_protocol.py:24-27 names of the members of `CallTypes`. -/
def Hytera.RealTimeTransportProtocol.CallTypes.pyName : Hytera.RealTimeTransportProtocol.CallTypes → String
  | .private_call => "private_call"
  | .group_call => "group_call"
  | .all_call => "all_call"

/-- okdmr/kaitai/hytera/telemetry_protocol.py:19-21 names of the members of `ServiceTypes`. -/
def Hytera.TelemetryProtocol.ServiceTypes.pyName : Hytera.TelemetryProtocol.ServiceTypes → String
  | .status_report_service => "status_report_service"
  | .remote_control_service => "remote_control_service"

/-- okdmr/kaitai/hytera/telemetry_protocol.py:23-25 names of the members of `ResultTypes`. -/
def Hytera.TelemetryProtocol.ResultTypes.pyName : Hytera.TelemetryProtocol.ResultTypes → String
  | .effective => "effective"
  | .ineffective => "ineffective"

/-- okdmr/kaitai/hytera/telemetry_protocol.py:27-30 names of the members of `CallTypes`. -/
def Hytera.TelemetryProtocol.CallTypes.pyName : Hytera.TelemetryProtocol.CallTypes → String
  | .private_call => "private_call"
  | .group_call => "group_call"
  | .all_call => "all_call"

/-- okdmr/kaitai/hytera/telemetry_protocol.py:32-36 names of the members of `OperationTypes`. -/
def Hytera.TelemetryProtocol.OperationTypes.pyName : Hytera.TelemetryProtocol.OperationTypes → String
  | .set_ineffective_level => "set_ineffective_level"
  | .set_effective_level => "set_effective_level"
  | .reverse_level => "reverse_level"
  | .output_one_pulse => "output_one_pulse"

/-- okdmr/kaitai/hytera/telemetry_protocol.py:38-40 names of the members of `PcFlagTypes`. -/
def Hytera.TelemetryProtocol.PcFlagTypes.pyName : Hytera.TelemetryProtocol.PcFlagTypes → String
  | .controller_is_radio => "controller_is_radio"
  | .controller_is_telemetry_application => "controller_is_telemetry_application"

/-- okdmr/kaitai/hytera/telemetry_protocol.py:42-47 names of the members of `ServiceSpecificTypes`. -/
def Hytera.TelemetryProtocol.ServiceSpecificTypes.pyName : Hytera.TelemetryProtocol.ServiceSpecificTypes → String
  | .standard_status_request => "standard_status_request"
  | .standard_status_report => "standard_status_report"
  | .extended_status_report => "extended_status_report"
  | .remote_control_request => "remote_control_request"
  | .remote_control_answer => "remote_control_answer"

/-- okdmr/kaitai/hytera/telemetry_protocol.py:49-51 names of the members of `ControlResultTypes`. -/
def Hytera.TelemetryProtocol.ControlResultTypes.pyName : Hytera.TelemetryProtocol.ControlResultTypes → String
  | .success => "success"
  | .failure => "failure"

/-- okdmr/kaitai/hytera/text_message_protocol.py:19-21 names of the members of `AckFlags`. -/
def Hytera.TextMessageProtocol.AckFlags.pyName : Hytera.TextMessageProtocol.AckFlags → String
  | .ack_required => "ack_required"
  | .ack_not_required => "ack_not_required"

/-- okdmr/kaitai/hytera/text_message_protocol.py:23-25 names of the members of `OptionFlags`. -/
def Hytera.TextMessageProtocol.OptionFlags.pyName : Hytera.TextMessageProtocol.OptionFlags → String
  | .option_len_and_field_disabled => "option_len_and_field_disabled"
  | .option_len_and_field_enabled => "option_len_and_field_enabled"

/-- okdmr/kaitai/hytera/text_message_protocol.py:27-31 names of the members of `ServiceTypes`. -/
def Hytera.TextMessageProtocol.ServiceTypes.pyName : Hytera.TextMessageProtocol.ServiceTypes → String
  | .send_private_message => "send_private_message"
  | .send_private_message_ack => "send_private_message_ack"
  | .send_group_message => "send_group_message"
  | .send_group_message_ack => "send_group_message_ack"

/-- okdmr/kaitai/hytera/text_message_protocol.py:33-45 names of the members of `ResultCodes`. -/
def Hytera.TextMessageProtocol.ResultCodes.pyName : Hytera.TextMessageProtocol.ResultCodes → String
  | .ok => "ok"
  | .fail => "fail"
  | .invalid_params => "invalid_params"
  | .channel_busy => "channel_busy"
  | .rx_only => "rx_only"
  | .low_battery => "low_battery"
  | .pll_unlock => "pll_unlock"
  | .private_call_no_ack => "private_call_no_ack"
  | .repeater_wakeup_fail => "repeater_wakeup_fail"
  | .no_contact => "no_contact"
  | .tx_deny => "tx_deny"
  | .tx_interrupted => "tx_interrupted"

/-- okdmr/kaitai/etsi/dmr_csbk.py:18-24 names of the members of `CsbkoTypes`. -/
def Etsi.DmrCsbk.CsbkoTypes.pyName : Etsi.DmrCsbk.CsbkoTypes → String
  | .unit_to_unit_voice_service_request => "unit_to_unit_voice_service_request"
  | .unit_to_unit_voice_service_answer_response => "unit_to_unit_voice_service_answer_response"
  | .channel_timing => "channel_timing"
  | .negative_acknowledge_response => "negative_acknowledge_response"
  | .bs_outbound_activation_csbk_pdu => "bs_outbound_activation_csbk_pdu"
  | .preamble => "preamble"

/-- okdmr/kaitai/etsi/dmr_csbk.py:26-28 names of the members of `CsbkDataOrCsbk`. -/
def Etsi.DmrCsbk.CsbkDataOrCsbk.pyName : Etsi.DmrCsbk.CsbkDataOrCsbk → String
  | .csbk_content_follows_preambles => "csbk_content_follows_preambles"
  | .data_content_follows_preambles => "data_content_follows_preambles"

/-- okdmr/kaitai/etsi/dmr_csbk.py:30-32 names of the members of `CsbkGroupOrIndividual`. -/
def Etsi.DmrCsbk.CsbkGroupOrIndividual.pyName : Etsi.DmrCsbk.CsbkGroupOrIndividual → String
  | .target_address_is_an_individual => "target_address_is_an_individual"
  | .target_address_is_a_group => "target_address_is_a_group"

/-- okdmr/kaitai/etsi/dmr_csbk.py:34-36 names of the members of `AnswerResponse`. -/
def Etsi.DmrCsbk.AnswerResponse.pyName : Etsi.DmrCsbk.AnswerResponse → String
  | .proceed => "proceed"
  | .deny => "deny"

/-- okdmr/kaitai/etsi/dmr_data_header.py:18-29 names of the members of `UdtFormats`. -/
def Etsi.DmrDataHeader.UdtFormats.pyName : Etsi.DmrDataHeader.UdtFormats → String
  | .binary => "binary"
  | .ms_or_tg_address => "ms_or_tg_address"
  | .bcd_4bit => "bcd_4bit"
  | .iso_7bit_coded_characters => "iso_7bit_coded_characters"
  | .iso_8bit_coded_characters => "iso_8bit_coded_characters"
  | .nmea_location_coded => "nmea_location_coded"
  | .ip_address => "ip_address"
  | .unicode_16bit_characters => "unicode_16bit_characters"
  | .manufacturer_specific => "manufacturer_specific"
  | .manufacturer_specific_2 => "manufacturer_specific_2"
  | .mixed_address_and_16bit_utf16be_characters => "mixed_address_and_16bit_utf16be_characters"

/-- okdmr/kaitai/etsi/dmr_data_header.py:31-57 names of the members of `CsbkMbcUdtOpcodes`. -/
def Etsi.DmrDataHeader.CsbkMbcUdtOpcodes.pyName : Etsi.DmrDataHeader.CsbkMbcUdtOpcodes → String
  | .c_aloha => "c_aloha"
  | .c_udthd => "c_udthd"
  | .c_udthu => "c_udthu"
  | .c_or_p_ahoy => "c_or_p_ahoy"
  | .c_ackvit => "c_ackvit"
  | .c_rand => "c_rand"
  | .c_ackd => "c_ackd"
  | .c_acku => "c_acku"
  | .p_ackd => "p_ackd"
  | .p_acku => "p_acku"
  | .c_dgnahd => "c_dgnahd"
  | .c_dgnahu => "c_dgnahu"
  | .c_bcast => "c_bcast"
  | .p_maint => "p_maint"
  | .p_clear => "p_clear"
  | .p_protect => "p_protect"
  | .pv_grant => "pv_grant"
  | .tv_grant => "tv_grant"
  | .btv_grant => "btv_grant"
  | .pd_grant => "pd_grant"
  | .td_grant => "td_grant"
  | .pv_grant_dx => "pv_grant_dx"
  | .pd_grant_dx => "pd_grant_dx"
  | .pd_grant_mi => "pd_grant_mi"
  | .td_grant_mi => "td_grant_mi"
  | .c_move => "c_move"

/-- okdmr/kaitai/etsi/dmr_data_header.py:59-66 names of the members of `DataPacketFormats`. -/
def Etsi.DmrDataHeader.DataPacketFormats.pyName : Etsi.DmrDataHeader.DataPacketFormats → String
  | .unified_data_transport => "unified_data_transport"
  | .response_packet => "response_packet"
  | .data_packet_unconfirmed => "data_packet_unconfirmed"
  | .data_packet_confirmed => "data_packet_confirmed"
  | .short_data_defined => "short_data_defined"
  | .short_data_raw_or_status_or_precoded => "short_data_raw_or_status_or_precoded"
  | .proprietary => "proprietary"

/-- okdmr/kaitai/etsi/dmr_data_header.py:68-75 names of the members of `SapIdentifiers`. -/
def Etsi.DmrDataHeader.SapIdentifiers.pyName : Etsi.DmrDataHeader.SapIdentifiers → String
  | .unified_data_transport => "unified_data_transport"
  | .tcp_ip_header_compression => "tcp_ip_header_compression"
  | .udp_ip_header_compression => "udp_ip_header_compression"
  | .ip_based_packet_data => "ip_based_packet_data"
  | .arp_address_resolution_protocol => "arp_address_resolution_protocol"
  | .proprietary_packet_data => "proprietary_packet_data"
  | .short_data => "short_data"

/-- okdmr/kaitai/etsi/dmr_data_header.py:77-102 names of the members of `DefinedDataFormats`. -/
def Etsi.DmrDataHeader.DefinedDataFormats.pyName : Etsi.DmrDataHeader.DefinedDataFormats → String
  | .binary => "binary"
  | .bcd => "bcd"
  | .coding_7bit => "coding_7bit"
  | .coding_8bit_8859_1 => "coding_8bit_8859_1"
  | .coding_8bit_8859_2 => "coding_8bit_8859_2"
  | .coding_8bit_8859_3 => "coding_8bit_8859_3"
  | .coding_8bit_8859_4 => "coding_8bit_8859_4"
  | .coding_8bit_8859_5 => "coding_8bit_8859_5"
  | .coding_8bit_8859_6 => "coding_8bit_8859_6"
  | .coding_8bit_8859_7 => "coding_8bit_8859_7"
  | .coding_8bit_8859_8 => "coding_8bit_8859_8"
  | .coding_8bit_8859_9 => "coding_8bit_8859_9"
  | .coding_8bit_8859_10 => "coding_8bit_8859_10"
  | .coding_8bit_8859_11 => "coding_8bit_8859_11"
  | .coding_8bit_8859_13 => "coding_8bit_8859_13"
  | .coding_8bit_8859_14 => "coding_8bit_8859_14"
  | .coding_8bit_8859_15 => "coding_8bit_8859_15"
  | .coding_8bit_8859_16 => "coding_8bit_8859_16"
  | .unicode_utf8 => "unicode_utf8"
  | .unicode_utf16 => "unicode_utf16"
  | .unicode_utf16be => "unicode_utf16be"
  | .unicode_utf16le => "unicode_utf16le"
  | .unicode_utf32 => "unicode_utf32"
  | .unicode_utf32be => "unicode_utf32be"
  | .unicode_utf32le => "unicode_utf32le"

/-- okdmr/kaitai/etsi/dmr_data_header.py:104-107 names of the members of `ResponsePacketClasses`. -/
def Etsi.DmrDataHeader.ResponsePacketClasses.pyName : Etsi.DmrDataHeader.ResponsePacketClasses → String
  | .ack => "ack"
  | .nack => "nack"
  | .sack => "sack"

/-- okdmr/kaitai/etsi/dmr_ip_udp.py:18-20 names of the members of `SourceIpAddressIds`. -/
def Etsi.DmrIpUdp.SourceIpAddressIds.pyName : Etsi.DmrIpUdp.SourceIpAddressIds → String
  | .radio_network => "radio_network"
  | .usb_ethernet_interface_network => "usb_ethernet_interface_network"

/-- okdmr/kaitai/etsi/dmr_ip_udp.py:22-25 names of the members of `DestinationIpAddressIds`. -/
def Etsi.DmrIpUdp.DestinationIpAddressIds.pyName : Etsi.DmrIpUdp.DestinationIpAddressIds → String
  | .radio_network => "radio_network"
  | .usb_ethernet_interface_network => "usb_ethernet_interface_network"
  | .group_network => "group_network"

/-- okdmr/kaitai/etsi/dmr_ip_udp.py:27-30 names of the members of `UdpPortIds`. -/
def Etsi.DmrIpUdp.UdpPortIds.pyName : Etsi.DmrIpUdp.UdpPortIds → String
  | .present_in_extended_header => "present_in_extended_header"
  | .utf16be_text_message_port_5016 => "utf16be_text_message_port_5016"
  | .location_interface_protocol => "location_interface_protocol"

/-- okdmr/kaitai/etsi/full_link_control.py:18-25 names of the members of `Flcos`. -/
def Etsi.FullLinkControl.Flcos.pyName : Etsi.FullLinkControl.Flcos → String
  | .group_voice => "group_voice"
  | .unit_to_unit_voice => "unit_to_unit_voice"
  | .talker_alias_header => "talker_alias_header"
  | .talker_alias_block1 => "talker_alias_block1"
  | .talker_alias_block2 => "talker_alias_block2"
  | .talker_alias_block3 => "talker_alias_block3"
  | .gps_info => "gps_info"

/-- okdmr/kaitai/etsi/full_link_control.py:27-35 names of the members of `PositionErrors`. -/
def Etsi.FullLinkControl.PositionErrors.pyName : Etsi.FullLinkControl.PositionErrors → String
  | .less_than_2m => "less_than_2m"
  | .less_than_20m => "less_than_20m"
  | .less_than_200m => "less_than_200m"
  | .less_than_2km => "less_than_2km"
  | .less_than_20km => "less_than_20km"
  | .less_than_or_equal_200km => "less_than_or_equal_200km"
  | .more_than_200km => "more_than_200km"
  | .position_error_unknown_or_invalid => "position_error_unknown_or_invalid"

/-- okdmr/kaitai/etsi/full_link_control.py:37-41 names of the members of `TalkerDataFormats`. -/
def Etsi.FullLinkControl.TalkerDataFormats.pyName : Etsi.FullLinkControl.TalkerDataFormats → String
  | .coding_7bit => "coding_7bit"
  | .coding_8bit => "coding_8bit"
  | .unicode_utf8 => "unicode_utf8"
  | .unicode_utf16 => "unicode_utf16"

/-- okdmr/kaitai/etsi/full_link_control.py:43-51 names of the members of `FeatureSetIds`. -/
def Etsi.FullLinkControl.FeatureSetIds.pyName : Etsi.FullLinkControl.FeatureSetIds → String
  | .standardized_ts_102_361_2 => "standardized_ts_102_361_2"
  | .reserved1 => "reserved1"
  | .reserved2 => "reserved2"
  | .reserved3 => "reserved3"
  | .mfid_start => "mfid_start"
  | .mfid_end => "mfid_end"
  | .mfid_reserved_start => "mfid_reserved_start"
  | .mfid_reserved_end => "mfid_reserved_end"

/-- okdmr/kaitai/homebrew/homebrew2015.py:18-20 names of the members of `Timeslots`. -/
def Homebrew.Homebrew2015.Timeslots.pyName : Homebrew.Homebrew2015.Timeslots → String
  | .timeslot_1 => "timeslot_1"
  | .timeslot_2 => "timeslot_2"

/-- okdmr/kaitai/homebrew/homebrew2015.py:22-24 names of the members of `CallTypes`. -/
def Homebrew.Homebrew2015.CallTypes.pyName : Homebrew.Homebrew2015.CallTypes → String
  | .group_call => "group_call"
  | .private_call => "private_call"

/-- okdmr/kaitai/homebrew/homebrew2015.py:26-30 names of the members of `FrameTypes`. -/
def Homebrew.Homebrew2015.FrameTypes.pyName : Homebrew.Homebrew2015.FrameTypes → String
  | .voice_data => "voice_data"
  | .voice_sync => "voice_sync"
  | .data_or_data_sync => "data_or_data_sync"
  | .unused => "unused"

/-- okdmr/kaitai/homebrew/mmdvm2020.py:18-22 names of the members of `TalkerAliasTypes`. -/
def Homebrew.Mmdvm2020.TalkerAliasTypes.pyName : Homebrew.Mmdvm2020.TalkerAliasTypes → String
  | .talker_alias_header => "talker_alias_header"
  | .talker_alias_block_1 => "talker_alias_block_1"
  | .talker_alias_block_2 => "talker_alias_block_2"
  | .talker_alias_block_3 => "talker_alias_block_3"

/-- okdmr/kaitai/homebrew/mmdvm2020.py:24-28 names of the members of `FrameTypes`. -/
def Homebrew.Mmdvm2020.FrameTypes.pyName : Homebrew.Mmdvm2020.FrameTypes → String
  | .voice_data => "voice_data"
  | .voice_sync => "voice_sync"
  | .data_or_data_sync => "data_or_data_sync"
  | .unused => "unused"

/-- okdmr/kaitai/homebrew/mmdvm2020.py:30-32 names of the members of `CallTypes`. -/
def Homebrew.Mmdvm2020.CallTypes.pyName : Homebrew.Mmdvm2020.CallTypes → String
  | .group_call => "group_call"
  | .private_call => "private_call"

/-- okdmr/kaitai/homebrew/mmdvm2020.py:34-42 names of the members of `PositionErrors`. -/
def Homebrew.Mmdvm2020.PositionErrors.pyName : Homebrew.Mmdvm2020.PositionErrors → String
  | .less_than_2m => "less_than_2m"
  | .less_than_20m => "less_than_20m"
  | .less_than_200m => "less_than_200m"
  | .less_than_2km => "less_than_2km"
  | .less_than_20km => "less_than_20km"
  | .less_than_or_equal_200km => "less_than_or_equal_200km"
  | .more_than_200km => "more_than_200km"
  | .position_error_unknown_or_invalid => "position_error_unknown_or_invalid"

/-- okdmr/kaitai/homebrew/mmdvm2020.py:44-46 names of the members of `Timeslots`. -/
def Homebrew.Mmdvm2020.Timeslots.pyName : Homebrew.Mmdvm2020.Timeslots → String
  | .timeslot_1 => "timeslot_1"
  | .timeslot_2 => "timeslot_2"

/-- okdmr/kaitai/motorola/automatic_registration_service.py:17-19 names of the members of `RegistrationEvents`. -/
def Motorola.AutomaticRegistrationService.RegistrationEvents.pyName : Motorola.AutomaticRegistrationService.RegistrationEvents → String
  | .initial_event => "initial_event"
  | .refresh_event => "refresh_event"

/-- okdmr/kaitai/motorola/automatic_registration_service.py:21-22 names of the members of `FailureReasons`. -/
def Motorola.AutomaticRegistrationService.FailureReasons.pyName : Motorola.AutomaticRegistrationService.FailureReasons → String
  | .device_not_authorized => "device_not_authorized"

/-- okdmr/kaitai/motorola/motorola_binary_xml.py:20-24 names of the members of `Docids`. -/
def Motorola.MotorolaBinaryXml.Docids.pyName : Motorola.MotorolaBinaryXml.Docids → String
  | .lrrp_immediate_request => "lrrp_immediate_request"
  | .lrrp_immediate_request_ncdt => "lrrp_immediate_request_ncdt"
  | .lrrp_immediate_response => "lrrp_immediate_response"
  | .lrrp_immediate_response_ncdt => "lrrp_immediate_response_ncdt"

/-- okdmr/kaitai/motorola/motorola_binary_xml.py:26-29 names of the members of `LrrpElements`. -/
def Motorola.MotorolaBinaryXml.LrrpElements.pyName : Motorola.MotorolaBinaryXml.LrrpElements → String
  | .request_id_22_opaque => "request_id_22_opaque"
  | .request_id_23_opaque_1byte => "request_id_23_opaque_1byte"
  | .request_id_24_cdt_reference => "request_id_24_cdt_reference"

/-- okdmr/kaitai/motorola/text_message_protocol.py:17-21 names of the members of `TmsServiceCapability`. -/
def Motorola.TextMessageProtocol.TmsServiceCapability.pyName : Motorola.TextMessageProtocol.TmsServiceCapability → String
  | .limited_capability => "limited_capability"
  | .internal_capability => "internal_capability"
  | .external_capability => "external_capability"
  | .full_capability => "full_capability"

end Dmr
