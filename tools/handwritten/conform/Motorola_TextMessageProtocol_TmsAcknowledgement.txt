/-- okdmr/kaitai/motorola/text_message_protocol.ksy type `TmsAcknowledgement`, in a message with the header `h`, against
`Dmr.Motorola.TextMessageProtocol.TmsAcknowledgement`. -/
theorem TextMessageProtocol_TmsAcknowledgement_conforms (n : Nat) (sc : Scope) (h : Dmr.Motorola.TextMessageProtocol.MessageHeaderBits)
    (hh : sc.root.attrs.lookup "message_header" = some (view (Dmr.Motorola.TextMessageProtocol.MessageHeaderBits.toPy h))) :
    parse (n + 2) sc Motorola.TextMessageProtocol.TmsAcknowledgement = (fun x => view (Dmr.Motorola.TextMessageProtocol.TmsAcknowledgement.toPy x)) <$> Dmr.Motorola.TextMessageProtocol.TmsAcknowledgement.read h := by
  rw [parse_succ]
  ksy_simp [Dmr.Motorola.TextMessageProtocol.TmsAcknowledgement.read, Dmr.Motorola.TextMessageProtocol.TmsAcknowledgement.toPy, hh, TextMessageProtocol_get_extension_bit]
