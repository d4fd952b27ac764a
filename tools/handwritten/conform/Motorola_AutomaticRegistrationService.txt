/-- okdmr/kaitai/motorola/automatic_registration_service.ksy against `Dmr.Motorola.AutomaticRegistrationService`. -/
@[ksy ↓] theorem AutomaticRegistrationService_conforms (n : Nat) (sc : Scope) :
    parse (n + 3) sc Motorola.AutomaticRegistrationService = (fun x => view (Dmr.Motorola.AutomaticRegistrationService.toPy x)) <$> Dmr.Motorola.AutomaticRegistrationService.read := by
  rw [parse_succ]
  ksy_simp [Dmr.Motorola.AutomaticRegistrationService.read, Dmr.Motorola.AutomaticRegistrationService.toPy, AutomaticRegistrationService_get_pdu_type]
  ksy_same
  rename Dmr.Motorola.AutomaticRegistrationService.MessageHeaderBits => h
  ksy_simp [AutomaticRegistrationService_DeviceRegistrationMessage_conforms _ _ h,
    AutomaticRegistrationService_AcknowledgementMessage_conforms _ _ h, Dmr.Motorola.AutomaticRegistrationService.readPduContent,
    same_cast_0, same_cast_1, same_cast_4, same_cast_15]
  split
  · ksy_simp [Dmr.Motorola.AutomaticRegistrationService.PduContentUnion.toPy]
  split
  · ksy_simp [Dmr.Motorola.AutomaticRegistrationService.PduContentUnion.toPy]
  split
  · ksy_simp [Dmr.Motorola.AutomaticRegistrationService.PduContentUnion.toPy]
  by_cases h15 : h.pdu_type = 15
  · ksy_simp [Dmr.Motorola.AutomaticRegistrationService.PduContentUnion.toPy, h15, same_cast_15]
  · ksy_simp [Dmr.Motorola.AutomaticRegistrationService.PduContentUnion.toPy, h15, same_cast_15]
