/-- okdmr/kaitai/motorola/text_message_protocol.py:110-118 property `sequence_number` of
`TextMessageHeaderSequenceAndEncoding` (hand-written): the attribute `sequence_number_msb_bits` may be absent. -/
def TextMessageProtocol.TextMessageHeaderSequenceAndEncoding.sequence_number
    (o : TextMessageProtocol.TextMessageHeaderSequenceAndEncoding) : Except PyErr Nat :=
  match o.sequence_number_msb_bits with
  | some m => .ok ((m <<< 4) + o.sequence_number_lsb_bits)
  | none => .error .attribute

/-- okdmr/kaitai/motorola/text_message_protocol.py:173-179 property `sequence_number` of
`TmsAcknowledgementHeaderSequenceNumber` (hand-written): the attribute `header_msb_bits` may be absent. -/
def TextMessageProtocol.TmsAcknowledgementHeaderSequenceNumber.sequence_number
    (o : TextMessageProtocol.TmsAcknowledgementHeaderSequenceNumber) : Except PyErr Nat :=
  match o.header_msb_bits with
  | some m => .ok ((m <<< 4) + o.header_lsb_bits)
  | none => .error .attribute
