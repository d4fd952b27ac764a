import Verif.Runtime
/-
Model of okdmr/kaitai/hytera/radio_control_protocol.py (generated by tools/py2lean.py from the Python AST;
definitions marked "hand-written" are not).
-/

namespace Dmr.Hytera

/-- okdmr/kaitai/hytera/radio_control_protocol.py:17-77 `class ServiceTypes(Enum)`. -/
inductive RadioControlProtocol.ServiceTypes where
  | radio_identification_request
  | button_and_keyboard_operation_request
  | internal_external_mic_enable_disable_request
  | internal_external_mic_gain_check_control_request
  | internal_external_speaker_enable_disable_request
  | volume_check_control_request
  | radio_configure_over_air_request
  | zone_and_channel_operation_request
  | radio_connect_login_request
  | radio_connect_logout_request
  | channel_status_or_param_check_request
  | function_status_check_request
  | function_enable_disable_request
  | channel_alias_request
  | radio_message_query_request
  | channel_number_of_zone_request
  | update_authentication_key_request
  | radio_id_and_radio_ip_query_request
  | radio_check
  | remote_monitor
  | allert_call
  | call_request
  | remove_radio_request
  | delete_subject_line_message_request
  | radio_disable
  | radio_enable
  | radio_status_configure_request
  | broadcast_status_configuration_request
  | button_and_keyboard_operation_reply
  | internal_external_mic_enable_disable_reply
  | internal_external_mic_gain_check_control_reply
  | internal_external_speaker_enable_disable_reply
  | volume_check_control_reply
  | radio_configure_over_air_reply
  | zone_and_channel_operation_reply
  | radio_status_configure_reply
  | broadcast_status_configuration_reply
  | radio_connect_login_reply
  | radio_connect_logout_reply
  | channel_status_or_param_check_reply
  | function_status_check_reply
  | function_enable_disable_reply
  | channel_alias_reply
  | radio_message_query_reply
  | radio_identification_reply
  | channel_number_of_zone_reply
  | update_authentication_key_reply
  | radio_id_and_radio_ip_query_reply
  | radio_check_ack
  | remote_monitor_ack
  | alert_call_ack
  | call_reply
  | remove_radio_reply
  | delete_subject_line_message_reply
  | radio_disable_ack
  | radio_enable_ack
  | radio_status_report
  | broadcast_transmit_status
  | repeater_broadcast_transmit_status
  | broadcast_receive_status
  deriving DecidableEq

/-- okdmr/kaitai/hytera/radio_control_protocol.py:17-77 values of `ServiceTypes`. -/
def RadioControlProtocol.ServiceTypes.toNat : RadioControlProtocol.ServiceTypes → Nat
  | .radio_identification_request => 4
  | .button_and_keyboard_operation_request => 65
  | .internal_external_mic_enable_disable_request => 67
  | .internal_external_mic_gain_check_control_request => 68
  | .internal_external_speaker_enable_disable_request => 69
  | .volume_check_control_request => 70
  | .radio_configure_over_air_request => 192
  | .zone_and_channel_operation_request => 196
  | .radio_connect_login_request => 202
  | .radio_connect_logout_request => 203
  | .channel_status_or_param_check_request => 231
  | .function_status_check_request => 237
  | .function_enable_disable_request => 238
  | .channel_alias_request => 305
  | .radio_message_query_request => 513
  | .channel_number_of_zone_request => 1104
  | .update_authentication_key_request => 1105
  | .radio_id_and_radio_ip_query_request => 1106
  | .radio_check => 2099
  | .remote_monitor => 2100
  | .allert_call => 2101
  | .call_request => 2113
  | .remove_radio_request => 2114
  | .delete_subject_line_message_request => 2118
  | .radio_disable => 2121
  | .radio_enable => 2122
  | .radio_status_configure_request => 4295
  | .broadcast_status_configuration_request => 4297
  | .button_and_keyboard_operation_reply => 32833
  | .internal_external_mic_enable_disable_reply => 32835
  | .internal_external_mic_gain_check_control_reply => 32836
  | .internal_external_speaker_enable_disable_reply => 32837
  | .volume_check_control_reply => 32838
  | .radio_configure_over_air_reply => 32960
  | .zone_and_channel_operation_reply => 32964
  | .radio_status_configure_reply => 32967
  | .broadcast_status_configuration_reply => 32969
  | .radio_connect_login_reply => 32970
  | .radio_connect_logout_reply => 32971
  | .channel_status_or_param_check_reply => 32999
  | .function_status_check_reply => 33005
  | .function_enable_disable_reply => 33006
  | .channel_alias_reply => 33073
  | .radio_message_query_reply => 33281
  | .radio_identification_reply => 33492
  | .channel_number_of_zone_reply => 33872
  | .update_authentication_key_reply => 33873
  | .radio_id_and_radio_ip_query_reply => 33874
  | .radio_check_ack => 34867
  | .remote_monitor_ack => 34868
  | .alert_call_ack => 34869
  | .call_reply => 34881
  | .remove_radio_reply => 34882
  | .delete_subject_line_message_reply => 34886
  | .radio_disable_ack => 34889
  | .radio_enable_ack => 34890
  | .radio_status_report => 45256
  | .broadcast_transmit_status => 47171
  | .repeater_broadcast_transmit_status => 47173
  | .broadcast_receive_status => 47428

/-- okdmr/kaitai/hytera/radio_control_protocol.py:17-77 `ServiceTypes` as a Python enumeration. -/
instance RadioControlProtocol.ServiceTypes.instPyEnum : PyEnum RadioControlProtocol.ServiceTypes where
  all := [.radio_identification_request, .button_and_keyboard_operation_request, .internal_external_mic_enable_disable_request, .internal_external_mic_gain_check_control_request, .internal_external_speaker_enable_disable_request, .volume_check_control_request, .radio_configure_over_air_request, .zone_and_channel_operation_request, .radio_connect_login_request, .radio_connect_logout_request, .channel_status_or_param_check_request, .function_status_check_request, .function_enable_disable_request, .channel_alias_request, .radio_message_query_request, .channel_number_of_zone_request, .update_authentication_key_request, .radio_id_and_radio_ip_query_request, .radio_check, .remote_monitor, .allert_call, .call_request, .remove_radio_request, .delete_subject_line_message_request, .radio_disable, .radio_enable, .radio_status_configure_request, .broadcast_status_configuration_request, .button_and_keyboard_operation_reply, .internal_external_mic_enable_disable_reply, .internal_external_mic_gain_check_control_reply, .internal_external_speaker_enable_disable_reply, .volume_check_control_reply, .radio_configure_over_air_reply, .zone_and_channel_operation_reply, .radio_status_configure_reply, .broadcast_status_configuration_reply, .radio_connect_login_reply, .radio_connect_logout_reply, .channel_status_or_param_check_reply, .function_status_check_reply, .function_enable_disable_reply, .channel_alias_reply, .radio_message_query_reply, .radio_identification_reply, .channel_number_of_zone_reply, .update_authentication_key_reply, .radio_id_and_radio_ip_query_reply, .radio_check_ack, .remote_monitor_ack, .alert_call_ack, .call_reply, .remove_radio_reply, .delete_subject_line_message_reply, .radio_disable_ack, .radio_enable_ack, .radio_status_report, .broadcast_transmit_status, .repeater_broadcast_transmit_status, .broadcast_receive_status]
  value := RadioControlProtocol.ServiceTypes.toNat

/-- okdmr/kaitai/hytera/radio_control_protocol.py:79-88 `class CallTypes(Enum)`. -/
inductive RadioControlProtocol.CallTypes where
  | private_call
  | group_call
  | all_call
  | emergency_group_call
  | remote_monitor_call
  | reserved
  | priority_private_call
  | priority_group_call
  | priority_all_call
  deriving DecidableEq

/-- okdmr/kaitai/hytera/radio_control_protocol.py:79-88 values of `CallTypes`. -/
def RadioControlProtocol.CallTypes.toNat : RadioControlProtocol.CallTypes → Nat
  | .private_call => 0
  | .group_call => 1
  | .all_call => 2
  | .emergency_group_call => 3
  | .remote_monitor_call => 4
  | .reserved => 5
  | .priority_private_call => 6
  | .priority_group_call => 7
  | .priority_all_call => 8

/-- okdmr/kaitai/hytera/radio_control_protocol.py:79-88 `CallTypes` as a Python enumeration. -/
instance RadioControlProtocol.CallTypes.instPyEnum : PyEnum RadioControlProtocol.CallTypes where
  all := [.private_call, .group_call, .all_call, .emergency_group_call, .remote_monitor_call, .reserved, .priority_private_call, .priority_group_call, .priority_all_call]
  value := RadioControlProtocol.CallTypes.toNat

/-- okdmr/kaitai/hytera/radio_control_protocol.py:90-92 `class ReplyResults(Enum)`. -/
inductive RadioControlProtocol.ReplyResults where
  | success
  | failure
  deriving DecidableEq

/-- okdmr/kaitai/hytera/radio_control_protocol.py:90-92 values of `ReplyResults`. -/
def RadioControlProtocol.ReplyResults.toNat : RadioControlProtocol.ReplyResults → Nat
  | .success => 0
  | .failure => 1

/-- okdmr/kaitai/hytera/radio_control_protocol.py:90-92 `ReplyResults` as a Python enumeration. -/
instance RadioControlProtocol.ReplyResults.instPyEnum : PyEnum RadioControlProtocol.ReplyResults where
  all := [.success, .failure]
  value := RadioControlProtocol.ReplyResults.toNat

/-- okdmr/kaitai/hytera/radio_control_protocol.py:146-149 attributes of `RadioControlProtocol.BroadcastStatusConfigurationReply`. -/
structure RadioControlProtocol.BroadcastStatusConfigurationReply where
  result : EnumVal RadioControlProtocol.ReplyResults
  deriving DecidableEq

/-- okdmr/kaitai/hytera/radio_control_protocol.py:146-149 `RadioControlProtocol.BroadcastStatusConfigurationReply._read`. -/
def RadioControlProtocol.BroadcastStatusConfigurationReply.read : Rd RadioControlProtocol.BroadcastStatusConfigurationReply := do
  let result ← asEnum RadioControlProtocol.ReplyResults (readU1)
  return { result }

/-- okdmr/kaitai/hytera/radio_control_protocol.py:158-160 attributes of `RadioControlProtocol.BroadcastConfiguration`. -/
structure RadioControlProtocol.BroadcastConfiguration where
  config_operation : Nat
  config_target : Nat
  deriving DecidableEq

/-- okdmr/kaitai/hytera/radio_control_protocol.py:158-160 `RadioControlProtocol.BroadcastConfiguration._read`. -/
def RadioControlProtocol.BroadcastConfiguration.read : Rd RadioControlProtocol.BroadcastConfiguration := do
  let config_operation ← readU1
  let config_target ← readU1
  return { config_operation, config_target }

/-- okdmr/kaitai/hytera/radio_control_protocol.py:171-179 attributes of `RadioControlProtocol.BroadcastStatusConfigurationRequest`. -/
structure RadioControlProtocol.BroadcastStatusConfigurationRequest where
  num_broadcast_configuration : Nat
  broadcast_configuration : List (RadioControlProtocol.BroadcastConfiguration)
  deriving DecidableEq

/-- okdmr/kaitai/hytera/radio_control_protocol.py:171-179 `RadioControlProtocol.BroadcastStatusConfigurationRequest._read`. -/
def RadioControlProtocol.BroadcastStatusConfigurationRequest.read : Rd RadioControlProtocol.BroadcastStatusConfigurationRequest := do
  let num_broadcast_configuration ← readU1
  let broadcast_configuration ← repeatN num_broadcast_configuration (RadioControlProtocol.BroadcastConfiguration.read)
  return { num_broadcast_configuration, broadcast_configuration }

/-- okdmr/kaitai/hytera/radio_control_protocol.py:188-196 attributes of `RadioControlProtocol.RadioIdentificationReply`. -/
structure RadioControlProtocol.RadioIdentificationReply where
  header : Option (Bytes)
  text : Option (PyStr)
  footer : Option (Bytes)
  deriving DecidableEq

/-- okdmr/kaitai/hytera/radio_control_protocol.py:188-196 `RadioControlProtocol.RadioIdentificationReply._read`. -/
def RadioControlProtocol.RadioIdentificationReply.read (parent_message_length : Nat) : Rd RadioControlProtocol.RadioIdentificationReply := do
  let header ← optionally (decide (parent_message_length ≥ 6)) (readBytes 6)
  let text ← optionally (decide (parent_message_length ≥ 198)) (decodeWith decodeUtf16be (readBytes 192))
  let footer ← optionally (decide (parent_message_length ≥ 206)) (readBytes 8)
  return { header, text, footer }

/-- okdmr/kaitai/hytera/radio_control_protocol.py:205-206 attributes of `RadioControlProtocol.GenericData`. -/
structure RadioControlProtocol.GenericData where
  data : Bytes
  deriving DecidableEq

/-- okdmr/kaitai/hytera/radio_control_protocol.py:205-206 `RadioControlProtocol.GenericData._read`. -/
def RadioControlProtocol.GenericData.read (parent_message_length : Nat) : Rd RadioControlProtocol.GenericData := do
  let data ← readBytes parent_message_length
  return { data }

/-- okdmr/kaitai/hytera/radio_control_protocol.py:215-219 attributes of `RadioControlProtocol.CallRequest`. -/
structure RadioControlProtocol.CallRequest where
  call_type : EnumVal RadioControlProtocol.CallTypes
  target_id : Nat
  deriving DecidableEq

/-- okdmr/kaitai/hytera/radio_control_protocol.py:215-219 `RadioControlProtocol.CallRequest._read`. -/
def RadioControlProtocol.CallRequest.read : Rd RadioControlProtocol.CallRequest := do
  let call_type ← asEnum RadioControlProtocol.CallTypes (readU1)
  let target_id ← readU4le
  return { call_type, target_id }

/-- okdmr/kaitai/hytera/radio_control_protocol.py:230-233 attributes of `RadioControlProtocol.RemoveRadioReply`. -/
structure RadioControlProtocol.RemoveRadioReply where
  result : EnumVal RadioControlProtocol.ReplyResults
  deriving DecidableEq

/-- okdmr/kaitai/hytera/radio_control_protocol.py:230-233 `RadioControlProtocol.RemoveRadioReply._read`. -/
def RadioControlProtocol.RemoveRadioReply.read : Rd RadioControlProtocol.RemoveRadioReply := do
  let result ← asEnum RadioControlProtocol.ReplyResults (readU1)
  return { result }

/-- okdmr/kaitai/hytera/radio_control_protocol.py:246-247 attributes of `RadioControlProtocol.RemoveRadioRequest`. -/
structure RadioControlProtocol.RemoveRadioRequest where
  deriving DecidableEq

/-- okdmr/kaitai/hytera/radio_control_protocol.py:246-247 `RadioControlProtocol.RemoveRadioRequest._read`. -/
def RadioControlProtocol.RemoveRadioRequest.read : Rd RadioControlProtocol.RemoveRadioRequest := return {}

/-- okdmr/kaitai/hytera/radio_control_protocol.py:256-259 attributes of `RadioControlProtocol.CallReply`. -/
structure RadioControlProtocol.CallReply where
  result : EnumVal RadioControlProtocol.ReplyResults
  deriving DecidableEq

/-- okdmr/kaitai/hytera/radio_control_protocol.py:256-259 `RadioControlProtocol.CallReply._read`. -/
def RadioControlProtocol.CallReply.read : Rd RadioControlProtocol.CallReply := do
  let result ← asEnum RadioControlProtocol.ReplyResults (readU1)
  return { result }

/-- okdmr/kaitai/hytera/radio_control_protocol.py:107-137 possible objects in `RadioControlProtocol.data`. -/
inductive RadioControlProtocol.DataUnion where
  | callReply (x : RadioControlProtocol.CallReply)
  | radioIdentificationReply (x : RadioControlProtocol.RadioIdentificationReply)
  | broadcastStatusConfigurationRequest (x : RadioControlProtocol.BroadcastStatusConfigurationRequest)
  | callRequest (x : RadioControlProtocol.CallRequest)
  | removeRadioRequest (x : RadioControlProtocol.RemoveRadioRequest)
  | broadcastStatusConfigurationReply (x : RadioControlProtocol.BroadcastStatusConfigurationReply)
  | removeRadioReply (x : RadioControlProtocol.RemoveRadioReply)
  | genericData (x : RadioControlProtocol.GenericData)
  deriving DecidableEq

/-- okdmr/kaitai/hytera/radio_control_protocol.py:106-137 the `if _on == ...` chain of `RadioControlProtocol._read`. -/
def RadioControlProtocol.readData (on : EnumVal RadioControlProtocol.ServiceTypes) (message_length : Nat) : Rd (RadioControlProtocol.DataUnion) :=
  if on = .known .call_reply then do let x ← RadioControlProtocol.CallReply.read; return .callReply x
  else if on = .known .radio_identification_reply then do let x ← RadioControlProtocol.RadioIdentificationReply.read message_length; return .radioIdentificationReply x
  else if on = .known .broadcast_status_configuration_request then do let x ← RadioControlProtocol.BroadcastStatusConfigurationRequest.read; return .broadcastStatusConfigurationRequest x
  else if on = .known .call_request then do let x ← RadioControlProtocol.CallRequest.read; return .callRequest x
  else if on = .known .remove_radio_request then do let x ← RadioControlProtocol.RemoveRadioRequest.read; return .removeRadioRequest x
  else if on = .known .broadcast_status_configuration_reply then do let x ← RadioControlProtocol.BroadcastStatusConfigurationReply.read; return .broadcastStatusConfigurationReply x
  else if on = .known .remove_radio_reply then do let x ← RadioControlProtocol.RemoveRadioReply.read; return .removeRadioReply x
  else do let x ← RadioControlProtocol.GenericData.read message_length; return .genericData x

/-- okdmr/kaitai/hytera/radio_control_protocol.py:100-137 attributes of `RadioControlProtocol`. -/
structure RadioControlProtocol where
  service_type : EnumVal RadioControlProtocol.ServiceTypes
  message_length : Nat
  data : RadioControlProtocol.DataUnion
  deriving DecidableEq

/-- okdmr/kaitai/hytera/radio_control_protocol.py:100-137 `RadioControlProtocol._read`. -/
def RadioControlProtocol.read : Rd RadioControlProtocol := do
  let service_type ← asEnum RadioControlProtocol.ServiceTypes (readU2le)
  let message_length ← readU2le
  let data ← RadioControlProtocol.readData service_type message_length
  return { service_type, message_length, data }

end Dmr.Hytera
