import Verif.Runtime
/-
Model of okdmr/kaitai/motorola/text_message_protocol.py (generated by tools/py2lean.py from the Python AST;
definitions marked "hand-written" are not).
-/

namespace Dmr.Motorola

/-- okdmr/kaitai/motorola/text_message_protocol.py:17-21 `class TmsServiceCapability(Enum)`. -/
inductive TextMessageProtocol.TmsServiceCapability where
  | limited_capability
  | internal_capability
  | external_capability
  | full_capability
  deriving DecidableEq

/-- okdmr/kaitai/motorola/text_message_protocol.py:17-21 values of `TmsServiceCapability`. -/
def TextMessageProtocol.TmsServiceCapability.toNat : TextMessageProtocol.TmsServiceCapability → Nat
  | .limited_capability => 0
  | .internal_capability => 1
  | .external_capability => 2
  | .full_capability => 3

/-- okdmr/kaitai/motorola/text_message_protocol.py:17-21 `TmsServiceCapability` as a Python enumeration. -/
instance TextMessageProtocol.TmsServiceCapability.instPyEnum : PyEnum TextMessageProtocol.TmsServiceCapability where
  all := [.limited_capability, .internal_capability, .external_capability, .full_capability]
  value := TextMessageProtocol.TmsServiceCapability.toNat

/-- okdmr/kaitai/motorola/text_message_protocol.py:127-132 attributes of `TextMessageProtocol.MessageHeaderBits`. -/
structure TextMessageProtocol.MessageHeaderBits where
  extension_bit : Bool
  acknowledgement_required : Bool
  reserved : Bool
  control_user_bit : Bool
  pdu_type : Nat
  deriving DecidableEq

/-- okdmr/kaitai/motorola/text_message_protocol.py:127-132 `TextMessageProtocol.MessageHeaderBits._read`. -/
def TextMessageProtocol.MessageHeaderBits.read : Rd TextMessageProtocol.MessageHeaderBits := do
  let extension_bit ← readFlag
  let acknowledgement_required ← readFlag
  let reserved ← readFlag
  let control_user_bit ← readFlag
  let pdu_type ← readBitsIntBe 4
  return { extension_bit, acknowledgement_required, reserved, control_user_bit, pdu_type }

/-- okdmr/kaitai/motorola/text_message_protocol.py:98-108 attributes of `TextMessageProtocol.TextMessageHeaderSequenceAndEncoding`. -/
structure TextMessageProtocol.TextMessageHeaderSequenceAndEncoding where
  has_encoding_header : Bool
  reserved_1 : Nat
  sequence_number_lsb_bits : Nat
  header_encoding_extension : Option (Bool)
  sequence_number_msb_bits : Option (Nat)
  encoding : Nat
  deriving DecidableEq

/-- okdmr/kaitai/motorola/text_message_protocol.py:98-108 `TextMessageProtocol.TextMessageHeaderSequenceAndEncoding._read`. -/
def TextMessageProtocol.TextMessageHeaderSequenceAndEncoding.read : Rd TextMessageProtocol.TextMessageHeaderSequenceAndEncoding := do
  let has_encoding_header ← readFlag
  let reserved_1 ← readBitsIntBe 2
  let sequence_number_lsb_bits ← readBitsIntBe 5
  let header_encoding_extension ← optionally (has_encoding_header) (readFlag)
  let sequence_number_msb_bits ← optionally (has_encoding_header) (readBitsIntBe 2)
  let encoding ← readBitsIntBe 5
  return { has_encoding_header, reserved_1, sequence_number_lsb_bits, header_encoding_extension, sequence_number_msb_bits, encoding }

/-- okdmr/kaitai/motorola/text_message_protocol.py:66-74 attributes of `TextMessageProtocol.TextMessage`. -/
structure TextMessageProtocol.TextMessage where
  text_message_header_sequence_and_encoding : Option (TextMessageProtocol.TextMessageHeaderSequenceAndEncoding)
  text_message : PyStr
  deriving DecidableEq

/-- okdmr/kaitai/motorola/text_message_protocol.py:66-74 `TextMessageProtocol.TextMessage._read`. -/
def TextMessageProtocol.TextMessage.read (root_message_header : TextMessageProtocol.MessageHeaderBits) : Rd TextMessageProtocol.TextMessage := do
  let text_message_header_sequence_and_encoding ← optionally (root_message_header.extension_bit) (TextMessageProtocol.TextMessageHeaderSequenceAndEncoding.read)
  let text_message ← decodeWith decodeUtf16le (readBytesFull)
  return { text_message_header_sequence_and_encoding, text_message }

/-- okdmr/kaitai/motorola/text_message_protocol.py:202-207 attributes of `TextMessageProtocol.TmsServiceAvailabilityHeader`. -/
structure TextMessageProtocol.TmsServiceAvailabilityHeader where
  extension_bit : Bool
  reserved : Nat
  device : EnumVal TextMessageProtocol.TmsServiceCapability
  deriving DecidableEq

/-- okdmr/kaitai/motorola/text_message_protocol.py:202-207 `TextMessageProtocol.TmsServiceAvailabilityHeader._read`. -/
def TextMessageProtocol.TmsServiceAvailabilityHeader.read : Rd TextMessageProtocol.TmsServiceAvailabilityHeader := do
  let extension_bit ← readFlag
  let reserved ← readBitsIntBe 4
  let device ← asEnum TextMessageProtocol.TmsServiceCapability (readBitsIntBe 3)
  return { extension_bit, reserved, device }

/-- okdmr/kaitai/motorola/text_message_protocol.py:85-89 attributes of `TextMessageProtocol.TmsServiceAvailability`. -/
structure TextMessageProtocol.TmsServiceAvailability where
  header : Option (TextMessageProtocol.TmsServiceAvailabilityHeader)
  deriving DecidableEq

/-- okdmr/kaitai/motorola/text_message_protocol.py:85-89 `TextMessageProtocol.TmsServiceAvailability._read`. -/
def TextMessageProtocol.TmsServiceAvailability.read (root_message_header : TextMessageProtocol.MessageHeaderBits) : Rd TextMessageProtocol.TmsServiceAvailability := do
  let header ← optionally (root_message_header.extension_bit) (TextMessageProtocol.TmsServiceAvailabilityHeader.read)
  return { header }

/-- okdmr/kaitai/motorola/text_message_protocol.py:160-171 attributes of `TextMessageProtocol.TmsAcknowledgementHeaderSequenceNumber`. -/
structure TextMessageProtocol.TmsAcknowledgementHeaderSequenceNumber where
  has_msb_header : Bool
  header_lsb_reserved : Nat
  header_lsb_bits : Nat
  header_msb_extension : Option (Bool)
  header_msb_bits : Option (Nat)
  header_msb_reserved : Option (Nat)
  deriving DecidableEq

/-- okdmr/kaitai/motorola/text_message_protocol.py:160-171 `TextMessageProtocol.TmsAcknowledgementHeaderSequenceNumber._read`. -/
def TextMessageProtocol.TmsAcknowledgementHeaderSequenceNumber.read : Rd TextMessageProtocol.TmsAcknowledgementHeaderSequenceNumber := do
  let has_msb_header ← readFlag
  let header_lsb_reserved ← readBitsIntBe 2
  let header_lsb_bits ← readBitsIntBe 5
  let header_msb_extension ← optionally (has_msb_header) (readFlag)
  let header_msb_bits ← optionally (has_msb_header) (readBitsIntBe 2)
  let header_msb_reserved ← optionally (has_msb_header) (readBitsIntBe 5)
  return { has_msb_header, header_lsb_reserved, header_lsb_bits, header_msb_extension, header_msb_bits, header_msb_reserved }

/-- okdmr/kaitai/motorola/text_message_protocol.py:143-149 attributes of `TextMessageProtocol.TmsAcknowledgement`. -/
structure TextMessageProtocol.TmsAcknowledgement where
  tms_acknowledgement_header_sequence_number : Option (TextMessageProtocol.TmsAcknowledgementHeaderSequenceNumber)
  deriving DecidableEq

/-- okdmr/kaitai/motorola/text_message_protocol.py:143-149 `TextMessageProtocol.TmsAcknowledgement._read`. -/
def TextMessageProtocol.TmsAcknowledgement.read (root_message_header : TextMessageProtocol.MessageHeaderBits) : Rd TextMessageProtocol.TmsAcknowledgement := do
  let tms_acknowledgement_header_sequence_number ← optionally (root_message_header.extension_bit) (TextMessageProtocol.TmsAcknowledgementHeaderSequenceNumber.read)
  return { tms_acknowledgement_header_sequence_number }

/-- okdmr/kaitai/motorola/text_message_protocol.py:192-193 attributes of `TextMessageProtocol.TmsServiceAvailabilityAcknowledgement`. -/
structure TextMessageProtocol.TmsServiceAvailabilityAcknowledgement where
  deriving DecidableEq

/-- okdmr/kaitai/motorola/text_message_protocol.py:192-193 `TextMessageProtocol.TmsServiceAvailabilityAcknowledgement._read`. -/
def TextMessageProtocol.TmsServiceAvailabilityAcknowledgement.read : Rd TextMessageProtocol.TmsServiceAvailabilityAcknowledgement := return {}

/-- okdmr/kaitai/motorola/text_message_protocol.py:209-219 property `custom_pdu_type` (hand-written). -/
def TextMessageProtocol.customPduType (h : TextMessageProtocol.MessageHeaderBits) : Nat :=
  (((h.acknowledgement_required.toNat <<< 5) + (h.control_user_bit.toNat <<< 4)) + h.pdu_type)

/-- okdmr/kaitai/motorola/text_message_protocol.py:38-54 possible objects in `TextMessageProtocol.pdu_content`. -/
inductive TextMessageProtocol.PduContentUnion where
  | tmsServiceAvailability (x : TextMessageProtocol.TmsServiceAvailability)
  | tmsAcknowledgement (x : TextMessageProtocol.TmsAcknowledgement)
  | textMessage (x : TextMessageProtocol.TextMessage)
  deriving DecidableEq

/-- okdmr/kaitai/motorola/text_message_protocol.py:29-55 attributes of `TextMessageProtocol` (hand-written;
the cache `_m_custom_pdu_type` is not recorded). -/
structure TextMessageProtocol where
  message_size : Nat
  message_header : TextMessageProtocol.MessageHeaderBits
  len_address : Nat
  address : Option (Bytes)
  pdu_content : Option TextMessageProtocol.PduContentUnion
  unparsed_data : Bytes
  deriving DecidableEq

/-- okdmr/kaitai/motorola/text_message_protocol.py:38-54 the `if _on == ...` chain of `TextMessageProtocol._read` (hand-written). -/
def TextMessageProtocol.readPduContent (on : Nat) (message_header : TextMessageProtocol.MessageHeaderBits) : Rd (Option TextMessageProtocol.PduContentUnion) :=
  if on = 48 then do let x ← TextMessageProtocol.TmsServiceAvailability.read message_header; return some (.tmsServiceAvailability x)
  else if on = 31 then do let x ← TextMessageProtocol.TmsAcknowledgement.read message_header; return some (.tmsAcknowledgement x)
  else if on = 0 then do let x ← TextMessageProtocol.TextMessage.read message_header; return some (.textMessage x)
  else if on = 32 then do let x ← TextMessageProtocol.TextMessage.read message_header; return some (.textMessage x)
  else return none

/-- okdmr/kaitai/motorola/text_message_protocol.py:29-55 `TextMessageProtocol._read` (hand-written). -/
def TextMessageProtocol.read : Rd TextMessageProtocol := do
  let message_size ← readU2be
  let message_header ← TextMessageProtocol.MessageHeaderBits.read
  let len_address ← readU1
  let address ← optionally (decide (len_address > 0)) (readBytes len_address)
  let pdu_content ← TextMessageProtocol.readPduContent (TextMessageProtocol.customPduType message_header) message_header
  let unparsed_data ← readBytesFull
  return { message_size, message_header, len_address, address, pdu_content, unparsed_data }

/-- okdmr/kaitai/motorola/text_message_protocol.py:110-118 property `sequence_number` of
`TextMessageHeaderSequenceAndEncoding` (hand-written): the attribute `sequence_number_msb_bits` may be absent. -/
def TextMessageProtocol.TextMessageHeaderSequenceAndEncoding.sequence_number
    (o : TextMessageProtocol.TextMessageHeaderSequenceAndEncoding) : Except PyErr Nat :=
  match o.sequence_number_msb_bits with
  | some m => .ok ((m <<< 4) + o.sequence_number_lsb_bits)
  | none => .error .attribute

/-- okdmr/kaitai/motorola/text_message_protocol.py:173-179 property `sequence_number` of
`TmsAcknowledgementHeaderSequenceNumber` (hand-written): the attribute `header_msb_bits` may be absent. -/
def TextMessageProtocol.TmsAcknowledgementHeaderSequenceNumber.sequence_number
    (o : TextMessageProtocol.TmsAcknowledgementHeaderSequenceNumber) : Except PyErr Nat :=
  match o.header_msb_bits with
  | some m => .ok ((m <<< 4) + o.header_lsb_bits)
  | none => .error .attribute

end Dmr.Motorola
