/-- okdmr/kaitai/hytera/text_message_protocol.py:53-96 attributes of `TextMessageProtocol`. -/
structure TextMessageProtocol where
  ack_flag : EnumVal TextMessageProtocol.AckFlags
  option_flag : EnumVal TextMessageProtocol.OptionFlags
  reserved : Nat
  service_type : EnumVal TextMessageProtocol.ServiceTypes
  message_length : Nat
  option_field_len : Option (Nat)
  request_id : Nat
  destination_ip : RadioIp
  source_ip : Option (RadioIp)
  result : Option (EnumVal TextMessageProtocol.ResultCodes)
  tmdata : Option (PyStr)
  option_field : Option (PyStr)
  deriving DecidableEq

/-- okdmr/kaitai/hytera/text_message_protocol.py:65 the expression `self.option_flag.value == 1`
(hand-written): a bare integer has no attribute `value`. -/
def TextMessageProtocol.optionFlagIsOne (f : EnumVal TextMessageProtocol.OptionFlags) : Rd Bool :=
  match f with
  | .known e => return decide (PyEnum.value e = 1)
  | .raw _ => Rd.throw .attribute

/-- okdmr/kaitai/hytera/text_message_protocol.py:98-106 property `option_sum_len` (hand-written; an absent
`option_field_len` would be an AttributeError; the cache `_m_option_sum_len` is not recorded). -/
def TextMessageProtocol.optionSumLen (f : EnumVal TextMessageProtocol.OptionFlags) (len : Option Nat) : Rd Nat := do
  let b ← TextMessageProtocol.optionFlagIsOne f
  if b then
    match len with
    | some n => return n + 2
    | none => Rd.throw .attribute
  else return 0

/-- okdmr/kaitai/hytera/text_message_protocol.py:94 `self._io.read_bytes(self.option_field_len)`
(hand-written; an absent attribute is an AttributeError). -/
def TextMessageProtocol.readOptionField (len : Option Nat) : Rd Bytes :=
  match len with
  | some n => readBytes n
  | none => Rd.throw .attribute

/-- okdmr/kaitai/hytera/text_message_protocol.py:53-96 `TextMessageProtocol._read` (hand-written). -/
def TextMessageProtocol.read : Rd TextMessageProtocol := do
  let ack_flag ← asEnum TextMessageProtocol.AckFlags (readBitsIntBe 1)
  let option_flag ← asEnum TextMessageProtocol.OptionFlags (readBitsIntBe 1)
  let reserved ← readBitsIntBe 6
  alignToByte
  let service_type ← asEnum TextMessageProtocol.ServiceTypes (readU1)
  let message_length ← readU2be
  let has_option ← TextMessageProtocol.optionFlagIsOne option_flag
  let option_field_len ← optionally (has_option) (readU2be)
  let request_id ← readU4be
  let destination_ip ← RadioIp.read
  let source_ip ← optionally (decide (service_type ≠ .known .send_group_message_ack)) (RadioIp.read)
  let result ← optionally ((decide (service_type = .known .send_private_message_ack)) || (decide (service_type = .known .send_group_message_ack))) (asEnum TextMessageProtocol.ResultCodes (readU1))
  let tmdata ← optionally ((decide (service_type = .known .send_private_message)) || (decide (service_type = .known .send_group_message))) (do
    let option_sum_len ← TextMessageProtocol.optionSumLen option_flag option_field_len
    decodeWith decodeUtf16le (readBytesInt (((((message_length : Int) - 4) - 4) - 4) - (option_sum_len : Int))))
  let has_option2 ← TextMessageProtocol.optionFlagIsOne option_flag
  let option_field ← optionally (has_option2) (decodeWith decodeUtf16le (TextMessageProtocol.readOptionField option_field_len))
  return { ack_flag, option_flag, reserved, service_type, message_length, option_field_len, request_id, destination_ip, source_ip, result, tmdata, option_field }
