import Verif.Runtime
import Verif.Model.Hytera.RadioIp
/-
Model of okdmr/kaitai/hytera/text_message_protocol.py (generated by tools/py2lean.py from the Python AST;
definitions marked "hand-written" are not).
-/

namespace Dmr.Hytera

/-- okdmr/kaitai/hytera/text_message_protocol.py:19-21 `class AckFlags(Enum)`. -/
inductive TextMessageProtocol.AckFlags where
  | ack_required
  | ack_not_required
  deriving DecidableEq

/-- okdmr/kaitai/hytera/text_message_protocol.py:19-21 values of `AckFlags`. -/
def TextMessageProtocol.AckFlags.toNat : TextMessageProtocol.AckFlags → Nat
  | .ack_required => 0
  | .ack_not_required => 1

/-- okdmr/kaitai/hytera/text_message_protocol.py:19-21 `AckFlags` as a Python enumeration. -/
instance TextMessageProtocol.AckFlags.instPyEnum : PyEnum TextMessageProtocol.AckFlags where
  all := [.ack_required, .ack_not_required]
  value := TextMessageProtocol.AckFlags.toNat

/-- okdmr/kaitai/hytera/text_message_protocol.py:23-25 `class OptionFlags(Enum)`. -/
inductive TextMessageProtocol.OptionFlags where
  | option_len_and_field_disabled
  | option_len_and_field_enabled
  deriving DecidableEq

/-- okdmr/kaitai/hytera/text_message_protocol.py:23-25 values of `OptionFlags`. -/
def TextMessageProtocol.OptionFlags.toNat : TextMessageProtocol.OptionFlags → Nat
  | .option_len_and_field_disabled => 0
  | .option_len_and_field_enabled => 1

/-- okdmr/kaitai/hytera/text_message_protocol.py:23-25 `OptionFlags` as a Python enumeration. -/
instance TextMessageProtocol.OptionFlags.instPyEnum : PyEnum TextMessageProtocol.OptionFlags where
  all := [.option_len_and_field_disabled, .option_len_and_field_enabled]
  value := TextMessageProtocol.OptionFlags.toNat

/-- okdmr/kaitai/hytera/text_message_protocol.py:27-31 `class ServiceTypes(Enum)`. -/
inductive TextMessageProtocol.ServiceTypes where
  | send_private_message
  | send_private_message_ack
  | send_group_message
  | send_group_message_ack
  deriving DecidableEq

/-- okdmr/kaitai/hytera/text_message_protocol.py:27-31 values of `ServiceTypes`. -/
def TextMessageProtocol.ServiceTypes.toNat : TextMessageProtocol.ServiceTypes → Nat
  | .send_private_message => 161
  | .send_private_message_ack => 162
  | .send_group_message => 177
  | .send_group_message_ack => 178

/-- okdmr/kaitai/hytera/text_message_protocol.py:27-31 `ServiceTypes` as a Python enumeration. -/
instance TextMessageProtocol.ServiceTypes.instPyEnum : PyEnum TextMessageProtocol.ServiceTypes where
  all := [.send_private_message, .send_private_message_ack, .send_group_message, .send_group_message_ack]
  value := TextMessageProtocol.ServiceTypes.toNat

/-- okdmr/kaitai/hytera/text_message_protocol.py:33-45 `class ResultCodes(Enum)`. -/
inductive TextMessageProtocol.ResultCodes where
  | ok
  | fail
  | invalid_params
  | channel_busy
  | rx_only
  | low_battery
  | pll_unlock
  | private_call_no_ack
  | repeater_wakeup_fail
  | no_contact
  | tx_deny
  | tx_interrupted
  deriving DecidableEq

/-- okdmr/kaitai/hytera/text_message_protocol.py:33-45 values of `ResultCodes`. -/
def TextMessageProtocol.ResultCodes.toNat : TextMessageProtocol.ResultCodes → Nat
  | .ok => 0
  | .fail => 1
  | .invalid_params => 3
  | .channel_busy => 4
  | .rx_only => 5
  | .low_battery => 6
  | .pll_unlock => 7
  | .private_call_no_ack => 8
  | .repeater_wakeup_fail => 9
  | .no_contact => 10
  | .tx_deny => 11
  | .tx_interrupted => 12

/-- okdmr/kaitai/hytera/text_message_protocol.py:33-45 `ResultCodes` as a Python enumeration. -/
instance TextMessageProtocol.ResultCodes.instPyEnum : PyEnum TextMessageProtocol.ResultCodes where
  all := [.ok, .fail, .invalid_params, .channel_busy, .rx_only, .low_battery, .pll_unlock, .private_call_no_ack, .repeater_wakeup_fail, .no_contact, .tx_deny, .tx_interrupted]
  value := TextMessageProtocol.ResultCodes.toNat

/-- okdmr/kaitai/hytera/text_message_protocol.py:53-96 attributes of `TextMessageProtocol`. -/
structure TextMessageProtocol where
  ack_flag : EnumVal TextMessageProtocol.AckFlags
  option_flag : EnumVal TextMessageProtocol.OptionFlags
  reserved : Nat
  service_type : EnumVal TextMessageProtocol.ServiceTypes
  message_length : Nat
  option_field_len : Option (Nat)
  request_id : Nat
  destination_ip : RadioIp
  source_ip : Option (RadioIp)
  result : Option (EnumVal TextMessageProtocol.ResultCodes)
  tmdata : Option (PyStr)
  option_field : Option (PyStr)
  deriving DecidableEq

/-- okdmr/kaitai/hytera/text_message_protocol.py:65 the expression `self.option_flag.value == 1`
(hand-written): a bare integer has no attribute `value`. -/
def TextMessageProtocol.optionFlagIsOne (f : EnumVal TextMessageProtocol.OptionFlags) : Rd Bool :=
  match f with
  | .known e => return decide (PyEnum.value e = 1)
  | .raw _ => Rd.throw .attribute

/-- okdmr/kaitai/hytera/text_message_protocol.py:98-106 property `option_sum_len` (hand-written; an absent
`option_field_len` would be an AttributeError; the cache `_m_option_sum_len` is not recorded). -/
def TextMessageProtocol.optionSumLen (f : EnumVal TextMessageProtocol.OptionFlags) (len : Option Nat) : Rd Nat := do
  let b ← TextMessageProtocol.optionFlagIsOne f
  if b then
    match len with
    | some n => return n + 2
    | none => Rd.throw .attribute
  else return 0

/-- okdmr/kaitai/hytera/text_message_protocol.py:94 `self._io.read_bytes(self.option_field_len)`
(hand-written; an absent attribute is an AttributeError). -/
def TextMessageProtocol.readOptionField (len : Option Nat) : Rd Bytes :=
  match len with
  | some n => readBytes n
  | none => Rd.throw .attribute

/-- okdmr/kaitai/hytera/text_message_protocol.py:53-96 `TextMessageProtocol._read` (hand-written). -/
def TextMessageProtocol.read : Rd TextMessageProtocol := do
  let ack_flag ← asEnum TextMessageProtocol.AckFlags (readBitsIntBe 1)
  let option_flag ← asEnum TextMessageProtocol.OptionFlags (readBitsIntBe 1)
  let reserved ← readBitsIntBe 6
  alignToByte
  let service_type ← asEnum TextMessageProtocol.ServiceTypes (readU1)
  let message_length ← readU2be
  let has_option ← TextMessageProtocol.optionFlagIsOne option_flag
  let option_field_len ← optionally (has_option) (readU2be)
  let request_id ← readU4be
  let destination_ip ← RadioIp.read
  let source_ip ← optionally (decide (service_type ≠ .known .send_group_message_ack)) (RadioIp.read)
  let result ← optionally ((decide (service_type = .known .send_private_message_ack)) || (decide (service_type = .known .send_group_message_ack))) (asEnum TextMessageProtocol.ResultCodes (readU1))
  let tmdata ← optionally ((decide (service_type = .known .send_private_message)) || (decide (service_type = .known .send_group_message))) (do
    let option_sum_len ← TextMessageProtocol.optionSumLen option_flag option_field_len
    decodeWith decodeUtf16le (readBytesInt (((((message_length : Int) - 4) - 4) - 4) - (option_sum_len : Int))))
  let has_option2 ← TextMessageProtocol.optionFlagIsOne option_flag
  let option_field ← optionally (has_option2) (decodeWith decodeUtf16le (TextMessageProtocol.readOptionField option_field_len))
  return { ack_flag, option_flag, reserved, service_type, message_length, option_field_len, request_id, destination_ip, source_ip, result, tmdata, option_field }

end Dmr.Hytera
