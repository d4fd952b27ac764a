import Verif.Ksy.Conform.Base
/-
Generated by tools/mkconform.py: the schema of `TextMessageProtocol` against the model of the Python classes.
-/

set_option linter.unusedSimpArgs false
set_option maxHeartbeats 1000000

namespace Dmr.Ksy.Motorola

@[ksy] theorem resolve_TextMessageProtocol_TmsServiceCapability (v : Nat) : Motorola.TextMessageProtocol.TmsServiceCapability.resolve v = EnumVal.toPy "TmsServiceCapability" (resolveEnum Dmr.Motorola.TextMessageProtocol.TmsServiceCapability v) :=
  resolve_eq _ (by decide) v

@[ksy ↓] theorem read_TextMessageProtocol_TmsServiceCapability_b3 (ev sub) : readTy ev sub (.bitsEnum 3 Motorola.TextMessageProtocol.TmsServiceCapability) =
    asEnum Dmr.Motorola.TextMessageProtocol.TmsServiceCapability (readBitsIntBe 3) >>= fun e => pure (some (EnumVal.toPy "TmsServiceCapability" e)) :=
  enum_bits resolve_TextMessageProtocol_TmsServiceCapability ev sub 3

/-- okdmr/kaitai/motorola/text_message_protocol.ksy:12-27 against `Dmr.Motorola.TextMessageProtocol.MessageHeaderBits`. -/
@[ksy ↓] theorem TextMessageProtocol_MessageHeaderBits_conforms (n : Nat) (sc : Scope) :
    parse (n + 1) sc Motorola.TextMessageProtocol.MessageHeaderBits = (fun x => view (Dmr.Motorola.TextMessageProtocol.MessageHeaderBits.toPy x)) <$> Dmr.Motorola.TextMessageProtocol.MessageHeaderBits.read := by
  rw [parse_succ]
  ksy_simp [Dmr.Motorola.TextMessageProtocol.MessageHeaderBits.read, Dmr.Motorola.TextMessageProtocol.MessageHeaderBits.toPy]

/-- okdmr/kaitai/motorola/text_message_protocol.ksy:29-37 against `Dmr.Motorola.TextMessageProtocol.TmsServiceAvailabilityHeader`. -/
@[ksy ↓] theorem TextMessageProtocol_TmsServiceAvailabilityHeader_conforms (n : Nat) (sc : Scope) :
    parse (n + 1) sc Motorola.TextMessageProtocol.TmsServiceAvailabilityHeader = (fun x => view (Dmr.Motorola.TextMessageProtocol.TmsServiceAvailabilityHeader.toPy x)) <$> Dmr.Motorola.TextMessageProtocol.TmsServiceAvailabilityHeader.read := by
  rw [parse_succ]
  ksy_simp [Dmr.Motorola.TextMessageProtocol.TmsServiceAvailabilityHeader.read, Dmr.Motorola.TextMessageProtocol.TmsServiceAvailabilityHeader.toPy]

theorem TextMessageProtocol_get_extension_bit (x : Dmr.Motorola.TextMessageProtocol.MessageHeaderBits) :
    getAttr (view (Dmr.Motorola.TextMessageProtocol.MessageHeaderBits.toPy x)) "extension_bit" = pure (.bool x.extension_bit) := by
  ksy_simp [Dmr.Motorola.TextMessageProtocol.MessageHeaderBits.toPy, get_attr]

theorem TextMessageProtocol_get_acknowledgement_required (x : Dmr.Motorola.TextMessageProtocol.MessageHeaderBits) :
    getAttr (view (Dmr.Motorola.TextMessageProtocol.MessageHeaderBits.toPy x)) "acknowledgement_required" = pure (.bool x.acknowledgement_required) := by
  ksy_simp [Dmr.Motorola.TextMessageProtocol.MessageHeaderBits.toPy, get_attr]

theorem TextMessageProtocol_get_control_user_bit (x : Dmr.Motorola.TextMessageProtocol.MessageHeaderBits) :
    getAttr (view (Dmr.Motorola.TextMessageProtocol.MessageHeaderBits.toPy x)) "control_user_bit" = pure (.bool x.control_user_bit) := by
  ksy_simp [Dmr.Motorola.TextMessageProtocol.MessageHeaderBits.toPy, get_attr]

theorem TextMessageProtocol_get_pdu_type (x : Dmr.Motorola.TextMessageProtocol.MessageHeaderBits) :
    getAttr (view (Dmr.Motorola.TextMessageProtocol.MessageHeaderBits.toPy x)) "pdu_type" = pure (.int (x.pdu_type : Int)) := by
  ksy_simp [Dmr.Motorola.TextMessageProtocol.MessageHeaderBits.toPy, get_attr]

/-- okdmr/kaitai/motorola/text_message_protocol.ksy type `TmsServiceAvailability`, in a message with the header `h`, against
`Dmr.Motorola.TextMessageProtocol.TmsServiceAvailability`. -/
theorem TextMessageProtocol_TmsServiceAvailability_conforms (n : Nat) (sc : Scope) (h : Dmr.Motorola.TextMessageProtocol.MessageHeaderBits)
    (hh : sc.root.attrs.lookup "message_header" = some (view (Dmr.Motorola.TextMessageProtocol.MessageHeaderBits.toPy h))) :
    parse (n + 2) sc Motorola.TextMessageProtocol.TmsServiceAvailability = (fun x => view (Dmr.Motorola.TextMessageProtocol.TmsServiceAvailability.toPy x)) <$> Dmr.Motorola.TextMessageProtocol.TmsServiceAvailability.read h := by
  rw [parse_succ]
  ksy_simp [Dmr.Motorola.TextMessageProtocol.TmsServiceAvailability.read, Dmr.Motorola.TextMessageProtocol.TmsServiceAvailability.toPy, hh, TextMessageProtocol_get_extension_bit]

/-- okdmr/kaitai/motorola/text_message_protocol.ksy:45-47 against `Dmr.Motorola.TextMessageProtocol.TmsServiceAvailabilityAcknowledgement`. -/
@[ksy ↓] theorem TextMessageProtocol_TmsServiceAvailabilityAcknowledgement_conforms (n : Nat) (sc : Scope) :
    parse (n + 1) sc Motorola.TextMessageProtocol.TmsServiceAvailabilityAcknowledgement = (fun x => view (Dmr.Motorola.TextMessageProtocol.TmsServiceAvailabilityAcknowledgement.toPy x)) <$> Dmr.Motorola.TextMessageProtocol.TmsServiceAvailabilityAcknowledgement.read := by
  rw [parse_succ]
  ksy_simp [Dmr.Motorola.TextMessageProtocol.TmsServiceAvailabilityAcknowledgement.read, Dmr.Motorola.TextMessageProtocol.TmsServiceAvailabilityAcknowledgement.toPy]

/-- okdmr/kaitai/motorola/text_message_protocol.ksy:49-68 against `Dmr.Motorola.TextMessageProtocol.TmsAcknowledgementHeaderSequenceNumber`. -/
@[ksy ↓] theorem TextMessageProtocol_TmsAcknowledgementHeaderSequenceNumber_conforms (n : Nat) (sc : Scope) :
    parse (n + 1) sc Motorola.TextMessageProtocol.TmsAcknowledgementHeaderSequenceNumber = (fun x => view (Dmr.Motorola.TextMessageProtocol.TmsAcknowledgementHeaderSequenceNumber.toPy x)) <$> Dmr.Motorola.TextMessageProtocol.TmsAcknowledgementHeaderSequenceNumber.read := by
  rw [parse_succ]
  ksy_simp [Dmr.Motorola.TextMessageProtocol.TmsAcknowledgementHeaderSequenceNumber.read, Dmr.Motorola.TextMessageProtocol.TmsAcknowledgementHeaderSequenceNumber.toPy]

/-- okdmr/kaitai/motorola/text_message_protocol.ksy type `TmsAcknowledgement`, in a message with the header `h`, against
`Dmr.Motorola.TextMessageProtocol.TmsAcknowledgement`. -/
theorem TextMessageProtocol_TmsAcknowledgement_conforms (n : Nat) (sc : Scope) (h : Dmr.Motorola.TextMessageProtocol.MessageHeaderBits)
    (hh : sc.root.attrs.lookup "message_header" = some (view (Dmr.Motorola.TextMessageProtocol.MessageHeaderBits.toPy h))) :
    parse (n + 2) sc Motorola.TextMessageProtocol.TmsAcknowledgement = (fun x => view (Dmr.Motorola.TextMessageProtocol.TmsAcknowledgement.toPy x)) <$> Dmr.Motorola.TextMessageProtocol.TmsAcknowledgement.read h := by
  rw [parse_succ]
  ksy_simp [Dmr.Motorola.TextMessageProtocol.TmsAcknowledgement.read, Dmr.Motorola.TextMessageProtocol.TmsAcknowledgement.toPy, hh, TextMessageProtocol_get_extension_bit]

/-- okdmr/kaitai/motorola/text_message_protocol.ksy:76-94 against `Dmr.Motorola.TextMessageProtocol.TextMessageHeaderSequenceAndEncoding`. -/
@[ksy ↓] theorem TextMessageProtocol_TextMessageHeaderSequenceAndEncoding_conforms (n : Nat) (sc : Scope) :
    parse (n + 1) sc Motorola.TextMessageProtocol.TextMessageHeaderSequenceAndEncoding = (fun x => view (Dmr.Motorola.TextMessageProtocol.TextMessageHeaderSequenceAndEncoding.toPy x)) <$> Dmr.Motorola.TextMessageProtocol.TextMessageHeaderSequenceAndEncoding.read := by
  rw [parse_succ]
  ksy_simp [Dmr.Motorola.TextMessageProtocol.TextMessageHeaderSequenceAndEncoding.read, Dmr.Motorola.TextMessageProtocol.TextMessageHeaderSequenceAndEncoding.toPy]

/-- okdmr/kaitai/motorola/text_message_protocol.ksy type `TextMessage`, in a message with the header `h`, against
`Dmr.Motorola.TextMessageProtocol.TextMessage`. -/
theorem TextMessageProtocol_TextMessage_conforms (n : Nat) (sc : Scope) (h : Dmr.Motorola.TextMessageProtocol.MessageHeaderBits)
    (hh : sc.root.attrs.lookup "message_header" = some (view (Dmr.Motorola.TextMessageProtocol.MessageHeaderBits.toPy h))) :
    parse (n + 2) sc Motorola.TextMessageProtocol.TextMessage = (fun x => view (Dmr.Motorola.TextMessageProtocol.TextMessage.toPy x)) <$> Dmr.Motorola.TextMessageProtocol.TextMessage.read h := by
  rw [parse_succ]
  ksy_simp [Dmr.Motorola.TextMessageProtocol.TextMessage.read, Dmr.Motorola.TextMessageProtocol.TextMessage.toPy, hh, TextMessageProtocol_get_extension_bit]

/-- okdmr/kaitai/motorola/text_message_protocol.ksy instance `custom_pdu_type` against the property of `Dmr.Motorola.TextMessageProtocol`. -/
theorem TextMessageProtocol_custom_pdu_type (n : Nat) (fr root : Frame) (h : Dmr.Motorola.TextMessageProtocol.MessageHeaderBits)
    (ht : fr.type = Motorola.TextMessageProtocol)
    (hh : root.attrs.lookup "message_header" = some (view (Dmr.Motorola.TextMessageProtocol.MessageHeaderBits.toPy h))) :
    inst (n + 1) fr root "custom_pdu_type" = pure (.int (Dmr.Motorola.TextMessageProtocol.customPduType h : Int)) := by
  rw [inst_value _ _ _ _ _ (by rw [ht]; rfl)]
  ksy_simp [hh, TextMessageProtocol_get_acknowledgement_required, TextMessageProtocol_get_control_user_bit,
    TextMessageProtocol_get_pdu_type]
  congr 2
  simp only [Dmr.Motorola.TextMessageProtocol.customPduType, Nat.shiftLeft_eq]
  rfl

/-- okdmr/kaitai/motorola/text_message_protocol.ksy against `Dmr.Motorola.TextMessageProtocol`. -/
@[ksy ↓] theorem TextMessageProtocol_conforms (n : Nat) (sc : Scope) :
    parse (n + 3) sc Motorola.TextMessageProtocol = (fun x => view (Dmr.Motorola.TextMessageProtocol.toPy x)) <$> Dmr.Motorola.TextMessageProtocol.read := by
  rw [parse_succ]
  ksy_simp [Dmr.Motorola.TextMessageProtocol.read, Dmr.Motorola.TextMessageProtocol.toPy]
  ksy_same
  rename Dmr.Motorola.TextMessageProtocol.MessageHeaderBits => h
  ksy_simp [TextMessageProtocol_custom_pdu_type _ _ _ h, TextMessageProtocol_TmsServiceAvailability_conforms _ _ h,
    TextMessageProtocol_TmsAcknowledgement_conforms _ _ h, TextMessageProtocol_TextMessage_conforms _ _ h, Dmr.Motorola.TextMessageProtocol.readPduContent,
    same_cast_0, same_cast_31, same_cast_32, same_cast_48]
  generalize Dmr.Motorola.TextMessageProtocol.customPduType h = t
  split
  · ksy_simp [Dmr.Motorola.TextMessageProtocol.PduContentUnion.toPy]
  split
  · ksy_simp [Dmr.Motorola.TextMessageProtocol.PduContentUnion.toPy]
  split
  · ksy_simp [Dmr.Motorola.TextMessageProtocol.PduContentUnion.toPy]
  by_cases ht : t = 32
  · ksy_simp [Dmr.Motorola.TextMessageProtocol.PduContentUnion.toPy, ht, same_cast_32]
  · ksy_simp [Dmr.Motorola.TextMessageProtocol.PduContentUnion.toPy, ht, same_cast_32]

end Dmr.Ksy.Motorola
