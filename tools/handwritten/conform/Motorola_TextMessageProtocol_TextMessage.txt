/-- okdmr/kaitai/motorola/text_message_protocol.ksy type `TextMessage`, in a message with the header `h`, against
`Dmr.Motorola.TextMessageProtocol.TextMessage`. -/
theorem TextMessageProtocol_TextMessage_conforms (n : Nat) (sc : Scope) (h : Dmr.Motorola.TextMessageProtocol.MessageHeaderBits)
    (hh : sc.root.attrs.lookup "message_header" = some (view (Dmr.Motorola.TextMessageProtocol.MessageHeaderBits.toPy h))) :
    parse (n + 2) sc Motorola.TextMessageProtocol.TextMessage = (fun x => view (Dmr.Motorola.TextMessageProtocol.TextMessage.toPy x)) <$> Dmr.Motorola.TextMessageProtocol.TextMessage.read h := by
  rw [parse_succ]
  ksy_simp [Dmr.Motorola.TextMessageProtocol.TextMessage.read, Dmr.Motorola.TextMessageProtocol.TextMessage.toPy, hh, TextMessageProtocol_get_extension_bit]
