import Verif.Spec.Motorola
/-
Where the parts of the variable-size Motorola messages lie (see `Verif/Spec/HyteraVar.lean` for the style).
-/

namespace Dmr.Motorola

/-! ### Automatic Registration Service -/

/-- A 1 byte length followed by that many bytes; no value at all if the length is 0. -/
def lengthPrefixed (b : Bytes) (q : Nat) : Parsed (Nat × Option Bytes) :=
  upTo b (q + 1) <|
  upTo b (q + 1 + u8 b q) <|
  .ok ((u8 b q, if u8 b q = 0 then none else some (slice b (q + 1) (u8 b q))), q + 1 + u8 b q)

/-- Acknowledgement: one header byte iff the extension bit is set; a refresh time if the acknowledgement bit is
set, a failure reason otherwise. -/
def AutomaticRegistrationService.AcknowledgementMessage.spec (h : AutomaticRegistrationService.MessageHeaderBits)
    (b : Bytes) (q : Nat) : Parsed AutomaticRegistrationService.AcknowledgementMessage :=
  if h.extension_bit then
    if h.acknowledgement_bit then
      (whole 1 DeviceRegistrationAcknowledgementHeader.spec b q).as fun x => ⟨some x, none⟩
    else (whole 1 DeviceRegistrationAcknowledgementFailureReason.spec b q).as fun x => ⟨none, some x⟩
  else .ok (⟨none, none⟩, q)

/-- Registration: one header byte iff the extension bit is set, then device identifier, user identifier and
password, each with a 1 byte length. -/
def AutomaticRegistrationService.DeviceRegistrationMessage.spec (h : AutomaticRegistrationService.MessageHeaderBits)
    (b : Bytes) (q : Nat) : Parsed AutomaticRegistrationService.DeviceRegistrationMessage :=
  next b (optPart h.extension_bit (whole 1 DeviceRegistrationMessageHeader.spec b q) q) fun header e =>
  next b (lengthPrefixed b e) fun device e1 =>
  next b (lengthPrefixed b e1) fun user e2 =>
  next b (lengthPrefixed b e2) fun password e3 =>
  .ok ({ device_registration_message_header := header
         len_device_identifier := device.1, device_identifier := device.2
         len_user_identifier := user.1, user_identifier := user.2
         len_password := password.1, password := password.2 }, e3)

/-- Content by PDU type. -/
def AutomaticRegistrationService.bodySpec (pdu_type : Nat) (h : AutomaticRegistrationService.MessageHeaderBits)
    (b : Bytes) (q : Nat) : Parsed (Option AutomaticRegistrationService.PduContentUnion) :=
  if pdu_type = 0 then (DeviceRegistrationMessage.spec h b q).as fun x => some (.deviceRegistrationMessage x)
  else if pdu_type = 1 then .ok (some (.deviceDeregistrationMessage {}), q)
  else if pdu_type = 4 then .ok (some (.arsQueryMessage {}), q)
  else if pdu_type = 15 then (AcknowledgementMessage.spec h b q).as fun x => some (.acknowledgementMessage x)
  else .ok (none, q)

/-- ARS message: 16 bit little-endian size, header byte, content, and whatever is left. -/
def AutomaticRegistrationService.spec (b : Bytes) (q : Nat) : Parsed AutomaticRegistrationService :=
  upTo b (q + 3) <|
  next b (bodySpec (bitsAt b (8 * q + 20) 4) (.spec b (q + 2)) b (q + 3)) fun pdu_content e =>
  .ok ({ message_size := u16le b q
         message_header := .spec b (q + 2)
         pdu_content
         unparsed_data := b.drop e }, b.length)

/-! ### Binary XML -/

/-- Variable length number: bytes up to and including the first one whose top bit is clear, or to the end of the
data. -/
def varBytes (b : Bytes) (q : Nat) : Parsed (List Nat) :=
  chain (whole 1 u8) (fun x e => decide (x / 128 % 2 = 0) || decide (e = b.length)) b q

/-- Unsigned number. -/
def MotorolaBinaryXml.Uintvar.spec (b : Bytes) (q : Nat) : Parsed MotorolaBinaryXml.Uintvar :=
  (varBytes b q).as fun payload => ⟨payload⟩
/-- Signed number. -/
def MotorolaBinaryXml.Sintvar.spec (b : Bytes) (q : Nat) : Parsed MotorolaBinaryXml.Sintvar :=
  (varBytes b q).as fun payload => ⟨payload⟩
/-- Unsigned float: integer part, fraction part. -/
def MotorolaBinaryXml.Ufloatvar.spec (b : Bytes) (q : Nat) : Parsed MotorolaBinaryXml.Ufloatvar :=
  next b (varBytes b q) fun i e =>
  next b (varBytes b e) fun f e' =>
  .ok (⟨⟨i⟩, ⟨f⟩⟩, e')
/-- Signed float: integer part, fraction part. -/
def MotorolaBinaryXml.Sfloatvar.spec (b : Bytes) (q : Nat) : Parsed MotorolaBinaryXml.Sfloatvar :=
  next b (varBytes b q) fun i e =>
  next b (varBytes b e) fun f e' =>
  .ok (⟨⟨i⟩, ⟨f⟩⟩, e')
/-- Reference into the constant data table. -/
def MotorolaBinaryXml.ConstantDataTableReference.spec (b : Bytes) (q : Nat) :
    Parsed MotorolaBinaryXml.ConstantDataTableReference :=
  (varBytes b q).as fun payload => ⟨⟨payload⟩⟩
/-- Opaque value: 1 byte length and that many bytes. -/
def MotorolaBinaryXml.OpaqueElementValue.spec (b : Bytes) (q : Nat) : Parsed MotorolaBinaryXml.OpaqueElementValue :=
  upTo b (q + 1) <|
  upTo b (q + 1 + u8 b q) <|
  .ok (⟨u8 b q, slice b (q + 1) (u8 b q)⟩, q + 1 + u8 b q)

/-- Element data by element type. -/
def MotorolaBinaryXml.LrrpElement.bodySpec (type : Nat) (b : Bytes) (q : Nat) :
    Parsed (Option MotorolaBinaryXml.LrrpElement.LrrpElementDataUnion) :=
  if type = 0x22 then (OpaqueElementValue.spec b q).as fun x => some (.opaqueElementValue x)
  else if type = 0x23 then (whole 1 Opaque1byteValue.spec b q).as fun x => some (.opaque1byteValue x)
  else if type = 0x24 then (ConstantDataTableReference.spec b q).as fun x => some (.constantDataTableReference x)
  else .ok (none, q)

/-- Element: type byte and data. -/
def MotorolaBinaryXml.LrrpElement.spec (b : Bytes) (q : Nat) : Parsed MotorolaBinaryXml.LrrpElement :=
  upTo b (q + 1) <|
  next b (bodySpec (u8 b q) b (q + 1)) fun lrrp_element_data e =>
  .ok ({ lrrp_element_type := resolveEnum _ (u8 b q), lrrp_element_data }, e)

/-- Document: id, length, and for an immediate request without table (5) one element. -/
def MotorolaBinaryXml.MbxmlDocument.spec (b : Bytes) (q : Nat) : Parsed MotorolaBinaryXml.MbxmlDocument :=
  upTo b (q + 1) <|
  next b (varBytes b (q + 1)) fun len e =>
  next b (optPart (u8 b q = 5) (LrrpElement.spec b e) e) fun element e' =>
  .ok ({ document_id := resolveEnum _ (u8 b q)
         num_document_bytes := ⟨len⟩
         document_data := element.map fun x => .lrrpImmediateRequestNcdt ⟨x⟩ }, e')

/-- Binary XML: documents up to and including the first one after which data are left. -/
def MotorolaBinaryXml.spec (b : Bytes) (q : Nat) : Parsed MotorolaBinaryXml :=
  (chain MbxmlDocument.spec (fun _ e => decide (e ≠ b.length)) b q).as fun documents => ⟨documents⟩

/-! ### Text messages -/

/-- Sequence number and encoding header: one byte, then 8 bits (with the first flag set) or 5 bits of a second. -/
def TextMessageProtocol.TextMessageHeaderSequenceAndEncoding.spec (b : Bytes) (q : Nat) :
    TextMessageProtocol.TextMessageHeaderSequenceAndEncoding where
  has_encoding_header := flagAt b (8 * q)
  reserved_1 := bitsAt b (8 * q + 1) 2
  sequence_number_lsb_bits := bitsAt b (8 * q + 3) 5
  header_encoding_extension := if flagAt b (8 * q) then some (flagAt b (8 * q + 8)) else none
  sequence_number_msb_bits := if flagAt b (8 * q) then some (bitsAt b (8 * q + 9) 2) else none
  encoding := if flagAt b (8 * q) then bitsAt b (8 * q + 11) 5 else bitsAt b (8 * q + 8) 5

/-- Text message: the 2 byte header iff the extension bit is set, and all the rest as UTF-16LE. -/
def TextMessageProtocol.TextMessage.spec (h : TextMessageProtocol.MessageHeaderBits) (b : Bytes) (q : Nat) :
    Parsed TextMessageProtocol.TextMessage :=
  if h.extension_bit then
    upTo b (q + 2) <|
    decoded (decodeUtf16le (b.drop (q + 2))) fun text_message =>
    .ok ({ text_message_header_sequence_and_encoding := some (.spec b q), text_message }, b.length)
  else
    decoded (decodeUtf16le (b.drop q)) fun text_message =>
    .ok ({ text_message_header_sequence_and_encoding := none, text_message }, b.length)

/-- Acknowledgement sequence number: one byte, and a second one if its first bit is set. -/
def TextMessageProtocol.TmsAcknowledgementHeaderSequenceNumber.spec (b : Bytes) (q : Nat) :
    Parsed TextMessageProtocol.TmsAcknowledgementHeaderSequenceNumber :=
  upTo b (q + 1) <|
  if flagAt b (8 * q) then
    upTo b (q + 2) <|
    .ok ({ has_msb_header := true
           header_lsb_reserved := bitsAt b (8 * q + 1) 2
           header_lsb_bits := bitsAt b (8 * q + 3) 5
           header_msb_extension := some (flagAt b (8 * q + 8))
           header_msb_bits := some (bitsAt b (8 * q + 9) 2)
           header_msb_reserved := some (bitsAt b (8 * q + 11) 5) }, q + 2)
  else
    .ok ({ has_msb_header := false
           header_lsb_reserved := bitsAt b (8 * q + 1) 2
           header_lsb_bits := bitsAt b (8 * q + 3) 5
           header_msb_extension := none, header_msb_bits := none, header_msb_reserved := none }, q + 1)

/-- Acknowledgement: the sequence number iff the extension bit is set. -/
def TextMessageProtocol.TmsAcknowledgement.spec (h : TextMessageProtocol.MessageHeaderBits) (b : Bytes) (q : Nat) :
    Parsed TextMessageProtocol.TmsAcknowledgement :=
  (optPart h.extension_bit (TmsAcknowledgementHeaderSequenceNumber.spec b q) q).as fun x => ⟨x⟩

/-- Service availability: the header byte iff the extension bit is set. -/
def TextMessageProtocol.TmsServiceAvailability.spec (h : TextMessageProtocol.MessageHeaderBits) (b : Bytes) (q : Nat) :
    Parsed TextMessageProtocol.TmsServiceAvailability :=
  (optPart h.extension_bit (whole 1 TmsServiceAvailabilityHeader.spec b q) q).as fun x => ⟨x⟩

/-- Content by acknowledgement bit, control bit and PDU type. -/
def TextMessageProtocol.bodySpec (ack control : Bool) (pdu_type : Nat) (h : TextMessageProtocol.MessageHeaderBits)
    (b : Bytes) (q : Nat) : Parsed (Option TextMessageProtocol.PduContentUnion) :=
  if ack ∧ control ∧ pdu_type = 0 then
    (TmsServiceAvailability.spec h b q).as fun x => some (.tmsServiceAvailability x)
  else if ¬ ack ∧ control ∧ pdu_type = 15 then
    (TmsAcknowledgement.spec h b q).as fun x => some (.tmsAcknowledgement x)
  else if ¬ control ∧ pdu_type = 0 then
    (TextMessage.spec h b q).as fun x => some (.textMessage x)
  else .ok (none, q)

/-- Motorola text message: 16 bit big-endian size, header byte, address with 1 byte length, content, and whatever
is left. -/
def TextMessageProtocol.spec (b : Bytes) (q : Nat) : Parsed TextMessageProtocol :=
  upTo b (q + 3) <|
  next b (lengthPrefixed b (q + 3)) fun address e =>
  next b (bodySpec (flagAt b (8 * q + 17)) (flagAt b (8 * q + 19)) (bitsAt b (8 * q + 20) 4) (.spec b (q + 2)) b e)
    fun pdu_content e' =>
  .ok ({ message_size := u16be b q
         message_header := .spec b (q + 2)
         len_address := address.1
         address := address.2
         pdu_content
         unparsed_data := b.drop e' }, b.length)

end Dmr.Motorola
