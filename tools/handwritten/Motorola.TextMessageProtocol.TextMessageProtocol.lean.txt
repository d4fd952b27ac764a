/-- okdmr/kaitai/motorola/text_message_protocol.py:209-219 property `custom_pdu_type` (hand-written). -/
def TextMessageProtocol.customPduType (h : TextMessageProtocol.MessageHeaderBits) : Nat :=
  (((h.acknowledgement_required.toNat <<< 5) + (h.control_user_bit.toNat <<< 4)) + h.pdu_type)

/-- okdmr/kaitai/motorola/text_message_protocol.py:38-54 possible objects in `TextMessageProtocol.pdu_content`. -/
inductive TextMessageProtocol.PduContentUnion where
  | tmsServiceAvailability (x : TextMessageProtocol.TmsServiceAvailability)
  | tmsAcknowledgement (x : TextMessageProtocol.TmsAcknowledgement)
  | textMessage (x : TextMessageProtocol.TextMessage)
  deriving DecidableEq

/-- okdmr/kaitai/motorola/text_message_protocol.py:29-55 attributes of `TextMessageProtocol` (hand-written;
the cache `_m_custom_pdu_type` is not recorded). -/
structure TextMessageProtocol where
  message_size : Nat
  message_header : TextMessageProtocol.MessageHeaderBits
  len_address : Nat
  address : Option (Bytes)
  pdu_content : Option TextMessageProtocol.PduContentUnion
  unparsed_data : Bytes
  deriving DecidableEq

/-- okdmr/kaitai/motorola/text_message_protocol.py:38-54 the `if _on == ...` chain of `TextMessageProtocol._read` (hand-written). -/
def TextMessageProtocol.readPduContent (on : Nat) (message_header : TextMessageProtocol.MessageHeaderBits) : Rd (Option TextMessageProtocol.PduContentUnion) :=
  if on = 48 then do let x ← TextMessageProtocol.TmsServiceAvailability.read message_header; return some (.tmsServiceAvailability x)
  else if on = 31 then do let x ← TextMessageProtocol.TmsAcknowledgement.read message_header; return some (.tmsAcknowledgement x)
  else if on = 0 then do let x ← TextMessageProtocol.TextMessage.read message_header; return some (.textMessage x)
  else if on = 32 then do let x ← TextMessageProtocol.TextMessage.read message_header; return some (.textMessage x)
  else return none

/-- okdmr/kaitai/motorola/text_message_protocol.py:29-55 `TextMessageProtocol._read` (hand-written). -/
def TextMessageProtocol.read : Rd TextMessageProtocol := do
  let message_size ← readU2be
  let message_header ← TextMessageProtocol.MessageHeaderBits.read
  let len_address ← readU1
  let address ← optionally (decide (len_address > 0)) (readBytes len_address)
  let pdu_content ← TextMessageProtocol.readPduContent (TextMessageProtocol.customPduType message_header) message_header
  let unparsed_data ← readBytesFull
  return { message_size, message_header, len_address, address, pdu_content, unparsed_data }
