theorem AutomaticRegistrationService_get_extension_bit (x : Dmr.Motorola.AutomaticRegistrationService.MessageHeaderBits) :
    getAttr (view (Dmr.Motorola.AutomaticRegistrationService.MessageHeaderBits.toPy x)) "extension_bit" = pure (.bool x.extension_bit) := by
  ksy_simp [Dmr.Motorola.AutomaticRegistrationService.MessageHeaderBits.toPy, get_attr]

theorem AutomaticRegistrationService_get_acknowledgement_bit (x : Dmr.Motorola.AutomaticRegistrationService.MessageHeaderBits) :
    getAttr (view (Dmr.Motorola.AutomaticRegistrationService.MessageHeaderBits.toPy x)) "acknowledgement_bit" = pure (.bool x.acknowledgement_bit) := by
  ksy_simp [Dmr.Motorola.AutomaticRegistrationService.MessageHeaderBits.toPy, get_attr]

theorem AutomaticRegistrationService_get_pdu_type (x : Dmr.Motorola.AutomaticRegistrationService.MessageHeaderBits) :
    getAttr (view (Dmr.Motorola.AutomaticRegistrationService.MessageHeaderBits.toPy x)) "pdu_type" = pure (.int (x.pdu_type : Int)) := by
  ksy_simp [Dmr.Motorola.AutomaticRegistrationService.MessageHeaderBits.toPy, get_attr]

/-- okdmr/kaitai/motorola/automatic_registration_service.ksy type `DeviceRegistrationMessage`, in a message with the header `h`, against
`Dmr.Motorola.AutomaticRegistrationService.DeviceRegistrationMessage`. -/
theorem AutomaticRegistrationService_DeviceRegistrationMessage_conforms (n : Nat) (sc : Scope) (h : Dmr.Motorola.AutomaticRegistrationService.MessageHeaderBits)
    (hh : sc.root.attrs.lookup "message_header" = some (view (Dmr.Motorola.AutomaticRegistrationService.MessageHeaderBits.toPy h))) :
    parse (n + 2) sc Motorola.AutomaticRegistrationService.DeviceRegistrationMessage = (fun x => view (Dmr.Motorola.AutomaticRegistrationService.DeviceRegistrationMessage.toPy x)) <$> Dmr.Motorola.AutomaticRegistrationService.DeviceRegistrationMessage.read h := by
  rw [parse_succ]
  ksy_simp [Dmr.Motorola.AutomaticRegistrationService.DeviceRegistrationMessage.read, Dmr.Motorola.AutomaticRegistrationService.DeviceRegistrationMessage.toPy, hh, AutomaticRegistrationService_get_extension_bit,
    AutomaticRegistrationService_get_acknowledgement_bit]
