theorem TextMessageProtocol_get_extension_bit (x : Dmr.Motorola.TextMessageProtocol.MessageHeaderBits) :
    getAttr (view (Dmr.Motorola.TextMessageProtocol.MessageHeaderBits.toPy x)) "extension_bit" = pure (.bool x.extension_bit) := by
  ksy_simp [Dmr.Motorola.TextMessageProtocol.MessageHeaderBits.toPy, get_attr]

theorem TextMessageProtocol_get_acknowledgement_required (x : Dmr.Motorola.TextMessageProtocol.MessageHeaderBits) :
    getAttr (view (Dmr.Motorola.TextMessageProtocol.MessageHeaderBits.toPy x)) "acknowledgement_required" = pure (.bool x.acknowledgement_required) := by
  ksy_simp [Dmr.Motorola.TextMessageProtocol.MessageHeaderBits.toPy, get_attr]

theorem TextMessageProtocol_get_control_user_bit (x : Dmr.Motorola.TextMessageProtocol.MessageHeaderBits) :
    getAttr (view (Dmr.Motorola.TextMessageProtocol.MessageHeaderBits.toPy x)) "control_user_bit" = pure (.bool x.control_user_bit) := by
  ksy_simp [Dmr.Motorola.TextMessageProtocol.MessageHeaderBits.toPy, get_attr]

theorem TextMessageProtocol_get_pdu_type (x : Dmr.Motorola.TextMessageProtocol.MessageHeaderBits) :
    getAttr (view (Dmr.Motorola.TextMessageProtocol.MessageHeaderBits.toPy x)) "pdu_type" = pure (.int (x.pdu_type : Int)) := by
  ksy_simp [Dmr.Motorola.TextMessageProtocol.MessageHeaderBits.toPy, get_attr]

/-- okdmr/kaitai/motorola/text_message_protocol.ksy type `TmsServiceAvailability`, in a message with the header `h`, against
`Dmr.Motorola.TextMessageProtocol.TmsServiceAvailability`. -/
theorem TextMessageProtocol_TmsServiceAvailability_conforms (n : Nat) (sc : Scope) (h : Dmr.Motorola.TextMessageProtocol.MessageHeaderBits)
    (hh : sc.root.attrs.lookup "message_header" = some (view (Dmr.Motorola.TextMessageProtocol.MessageHeaderBits.toPy h))) :
    parse (n + 2) sc Motorola.TextMessageProtocol.TmsServiceAvailability = (fun x => view (Dmr.Motorola.TextMessageProtocol.TmsServiceAvailability.toPy x)) <$> Dmr.Motorola.TextMessageProtocol.TmsServiceAvailability.read h := by
  rw [parse_succ]
  ksy_simp [Dmr.Motorola.TextMessageProtocol.TmsServiceAvailability.read, Dmr.Motorola.TextMessageProtocol.TmsServiceAvailability.toPy, hh, TextMessageProtocol_get_extension_bit]
