/-- okdmr/kaitai/motorola/text_message_protocol.ksy instance `custom_pdu_type` against the property of `Dmr.Motorola.TextMessageProtocol`. -/
theorem TextMessageProtocol_custom_pdu_type (n : Nat) (fr root : Frame) (h : Dmr.Motorola.TextMessageProtocol.MessageHeaderBits)
    (ht : fr.type = Motorola.TextMessageProtocol)
    (hh : root.attrs.lookup "message_header" = some (view (Dmr.Motorola.TextMessageProtocol.MessageHeaderBits.toPy h))) :
    inst (n + 1) fr root "custom_pdu_type" = pure (.int (Dmr.Motorola.TextMessageProtocol.customPduType h : Int)) := by
  rw [inst_value _ _ _ _ _ (by rw [ht]; rfl)]
  ksy_simp [hh, TextMessageProtocol_get_acknowledgement_required, TextMessageProtocol_get_control_user_bit,
    TextMessageProtocol_get_pdu_type]
  congr 2
  simp only [Dmr.Motorola.TextMessageProtocol.customPduType, Nat.shiftLeft_eq]
  rfl

/-- okdmr/kaitai/motorola/text_message_protocol.ksy against `Dmr.Motorola.TextMessageProtocol`. -/
@[ksy ↓] theorem TextMessageProtocol_conforms (n : Nat) (sc : Scope) :
    parse (n + 3) sc Motorola.TextMessageProtocol = (fun x => view (Dmr.Motorola.TextMessageProtocol.toPy x)) <$> Dmr.Motorola.TextMessageProtocol.read := by
  rw [parse_succ]
  ksy_simp [Dmr.Motorola.TextMessageProtocol.read, Dmr.Motorola.TextMessageProtocol.toPy]
  ksy_same
  rename Dmr.Motorola.TextMessageProtocol.MessageHeaderBits => h
  ksy_simp [TextMessageProtocol_custom_pdu_type _ _ _ h, TextMessageProtocol_TmsServiceAvailability_conforms _ _ h,
    TextMessageProtocol_TmsAcknowledgement_conforms _ _ h, TextMessageProtocol_TextMessage_conforms _ _ h, Dmr.Motorola.TextMessageProtocol.readPduContent,
    same_cast_0, same_cast_31, same_cast_32, same_cast_48]
  generalize Dmr.Motorola.TextMessageProtocol.customPduType h = t
  split
  · ksy_simp [Dmr.Motorola.TextMessageProtocol.PduContentUnion.toPy]
  split
  · ksy_simp [Dmr.Motorola.TextMessageProtocol.PduContentUnion.toPy]
  split
  · ksy_simp [Dmr.Motorola.TextMessageProtocol.PduContentUnion.toPy]
  by_cases ht : t = 32
  · ksy_simp [Dmr.Motorola.TextMessageProtocol.PduContentUnion.toPy, ht, same_cast_32]
  · ksy_simp [Dmr.Motorola.TextMessageProtocol.PduContentUnion.toPy, ht, same_cast_32]
