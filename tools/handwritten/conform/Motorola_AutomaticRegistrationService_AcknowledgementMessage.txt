/-- okdmr/kaitai/motorola/automatic_registration_service.ksy type `AcknowledgementMessage`, in a message with the header `h`, against
`Dmr.Motorola.AutomaticRegistrationService.AcknowledgementMessage`. -/
theorem AutomaticRegistrationService_AcknowledgementMessage_conforms (n : Nat) (sc : Scope) (h : Dmr.Motorola.AutomaticRegistrationService.MessageHeaderBits)
    (hh : sc.root.attrs.lookup "message_header" = some (view (Dmr.Motorola.AutomaticRegistrationService.MessageHeaderBits.toPy h))) :
    parse (n + 2) sc Motorola.AutomaticRegistrationService.AcknowledgementMessage = (fun x => view (Dmr.Motorola.AutomaticRegistrationService.AcknowledgementMessage.toPy x)) <$> Dmr.Motorola.AutomaticRegistrationService.AcknowledgementMessage.read h := by
  rw [parse_succ]
  ksy_simp [Dmr.Motorola.AutomaticRegistrationService.AcknowledgementMessage.read, Dmr.Motorola.AutomaticRegistrationService.AcknowledgementMessage.toPy, hh, AutomaticRegistrationService_get_extension_bit,
    AutomaticRegistrationService_get_acknowledgement_bit]
