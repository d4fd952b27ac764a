import Verif.Ksy.Conform.Base
/-
Generated by tools/mkconform.py: the schema of `AutomaticRegistrationService` against the model of the Python classes.
-/

set_option linter.unusedSimpArgs false
set_option maxHeartbeats 1000000

namespace Dmr.Ksy.Motorola

@[ksy] theorem resolve_AutomaticRegistrationService_RegistrationEvents (v : Nat) : Motorola.AutomaticRegistrationService.RegistrationEvents.resolve v = EnumVal.toPy "RegistrationEvents" (resolveEnum Dmr.Motorola.AutomaticRegistrationService.RegistrationEvents v) :=
  resolve_eq _ (by decide) v

@[ksy ↓] theorem read_AutomaticRegistrationService_RegistrationEvents_b2 (ev sub) : readTy ev sub (.bitsEnum 2 Motorola.AutomaticRegistrationService.RegistrationEvents) =
    asEnum Dmr.Motorola.AutomaticRegistrationService.RegistrationEvents (readBitsIntBe 2) >>= fun e => pure (some (EnumVal.toPy "RegistrationEvents" e)) :=
  enum_bits resolve_AutomaticRegistrationService_RegistrationEvents ev sub 2

@[ksy] theorem resolve_AutomaticRegistrationService_FailureReasons (v : Nat) : Motorola.AutomaticRegistrationService.FailureReasons.resolve v = EnumVal.toPy "FailureReasons" (resolveEnum Dmr.Motorola.AutomaticRegistrationService.FailureReasons v) :=
  resolve_eq _ (by decide) v

@[ksy ↓] theorem read_AutomaticRegistrationService_FailureReasons_b7 (ev sub) : readTy ev sub (.bitsEnum 7 Motorola.AutomaticRegistrationService.FailureReasons) =
    asEnum Dmr.Motorola.AutomaticRegistrationService.FailureReasons (readBitsIntBe 7) >>= fun e => pure (some (EnumVal.toPy "FailureReasons" e)) :=
  enum_bits resolve_AutomaticRegistrationService_FailureReasons ev sub 7

/-- okdmr/kaitai/motorola/automatic_registration_service.ksy:12-27 against `Dmr.Motorola.AutomaticRegistrationService.MessageHeaderBits`. -/
@[ksy ↓] theorem AutomaticRegistrationService_MessageHeaderBits_conforms (n : Nat) (sc : Scope) :
    parse (n + 1) sc Motorola.AutomaticRegistrationService.MessageHeaderBits = (fun x => view (Dmr.Motorola.AutomaticRegistrationService.MessageHeaderBits.toPy x)) <$> Dmr.Motorola.AutomaticRegistrationService.MessageHeaderBits.read := by
  rw [parse_succ]
  ksy_simp [Dmr.Motorola.AutomaticRegistrationService.MessageHeaderBits.read, Dmr.Motorola.AutomaticRegistrationService.MessageHeaderBits.toPy]

/-- okdmr/kaitai/motorola/automatic_registration_service.ksy:29-38 against `Dmr.Motorola.AutomaticRegistrationService.DeviceRegistrationMessageHeader`. -/
@[ksy ↓] theorem AutomaticRegistrationService_DeviceRegistrationMessageHeader_conforms (n : Nat) (sc : Scope) :
    parse (n + 1) sc Motorola.AutomaticRegistrationService.DeviceRegistrationMessageHeader = (fun x => view (Dmr.Motorola.AutomaticRegistrationService.DeviceRegistrationMessageHeader.toPy x)) <$> Dmr.Motorola.AutomaticRegistrationService.DeviceRegistrationMessageHeader.read := by
  rw [parse_succ]
  ksy_simp [Dmr.Motorola.AutomaticRegistrationService.DeviceRegistrationMessageHeader.read, Dmr.Motorola.AutomaticRegistrationService.DeviceRegistrationMessageHeader.toPy]

theorem AutomaticRegistrationService_get_extension_bit (x : Dmr.Motorola.AutomaticRegistrationService.MessageHeaderBits) :
    getAttr (view (Dmr.Motorola.AutomaticRegistrationService.MessageHeaderBits.toPy x)) "extension_bit" = pure (.bool x.extension_bit) := by
  ksy_simp [Dmr.Motorola.AutomaticRegistrationService.MessageHeaderBits.toPy, get_attr]

theorem AutomaticRegistrationService_get_acknowledgement_bit (x : Dmr.Motorola.AutomaticRegistrationService.MessageHeaderBits) :
    getAttr (view (Dmr.Motorola.AutomaticRegistrationService.MessageHeaderBits.toPy x)) "acknowledgement_bit" = pure (.bool x.acknowledgement_bit) := by
  ksy_simp [Dmr.Motorola.AutomaticRegistrationService.MessageHeaderBits.toPy, get_attr]

theorem AutomaticRegistrationService_get_pdu_type (x : Dmr.Motorola.AutomaticRegistrationService.MessageHeaderBits) :
    getAttr (view (Dmr.Motorola.AutomaticRegistrationService.MessageHeaderBits.toPy x)) "pdu_type" = pure (.int (x.pdu_type : Int)) := by
  ksy_simp [Dmr.Motorola.AutomaticRegistrationService.MessageHeaderBits.toPy, get_attr]

/-- okdmr/kaitai/motorola/automatic_registration_service.ksy type `DeviceRegistrationMessage`, in a message with the header `h`, against
`Dmr.Motorola.AutomaticRegistrationService.DeviceRegistrationMessage`. -/
theorem AutomaticRegistrationService_DeviceRegistrationMessage_conforms (n : Nat) (sc : Scope) (h : Dmr.Motorola.AutomaticRegistrationService.MessageHeaderBits)
    (hh : sc.root.attrs.lookup "message_header" = some (view (Dmr.Motorola.AutomaticRegistrationService.MessageHeaderBits.toPy h))) :
    parse (n + 2) sc Motorola.AutomaticRegistrationService.DeviceRegistrationMessage = (fun x => view (Dmr.Motorola.AutomaticRegistrationService.DeviceRegistrationMessage.toPy x)) <$> Dmr.Motorola.AutomaticRegistrationService.DeviceRegistrationMessage.read h := by
  rw [parse_succ]
  ksy_simp [Dmr.Motorola.AutomaticRegistrationService.DeviceRegistrationMessage.read, Dmr.Motorola.AutomaticRegistrationService.DeviceRegistrationMessage.toPy, hh, AutomaticRegistrationService_get_extension_bit,
    AutomaticRegistrationService_get_acknowledgement_bit]

/-- okdmr/kaitai/motorola/automatic_registration_service.ksy:61-68 against `Dmr.Motorola.AutomaticRegistrationService.DeviceRegistrationAcknowledgementHeader`. -/
@[ksy ↓] theorem AutomaticRegistrationService_DeviceRegistrationAcknowledgementHeader_conforms (n : Nat) (sc : Scope) :
    parse (n + 1) sc Motorola.AutomaticRegistrationService.DeviceRegistrationAcknowledgementHeader = (fun x => view (Dmr.Motorola.AutomaticRegistrationService.DeviceRegistrationAcknowledgementHeader.toPy x)) <$> Dmr.Motorola.AutomaticRegistrationService.DeviceRegistrationAcknowledgementHeader.read := by
  rw [parse_succ]
  ksy_simp [Dmr.Motorola.AutomaticRegistrationService.DeviceRegistrationAcknowledgementHeader.read, Dmr.Motorola.AutomaticRegistrationService.DeviceRegistrationAcknowledgementHeader.toPy]

/-- okdmr/kaitai/motorola/automatic_registration_service.ksy:70-77 against `Dmr.Motorola.AutomaticRegistrationService.DeviceRegistrationAcknowledgementFailureReason`. -/
@[ksy ↓] theorem AutomaticRegistrationService_DeviceRegistrationAcknowledgementFailureReason_conforms (n : Nat) (sc : Scope) :
    parse (n + 1) sc Motorola.AutomaticRegistrationService.DeviceRegistrationAcknowledgementFailureReason = (fun x => view (Dmr.Motorola.AutomaticRegistrationService.DeviceRegistrationAcknowledgementFailureReason.toPy x)) <$> Dmr.Motorola.AutomaticRegistrationService.DeviceRegistrationAcknowledgementFailureReason.read := by
  rw [parse_succ]
  ksy_simp [Dmr.Motorola.AutomaticRegistrationService.DeviceRegistrationAcknowledgementFailureReason.read, Dmr.Motorola.AutomaticRegistrationService.DeviceRegistrationAcknowledgementFailureReason.toPy]

/-- okdmr/kaitai/motorola/automatic_registration_service.ksy type `AcknowledgementMessage`, in a message with the header `h`, against
`Dmr.Motorola.AutomaticRegistrationService.AcknowledgementMessage`. -/
theorem AutomaticRegistrationService_AcknowledgementMessage_conforms (n : Nat) (sc : Scope) (h : Dmr.Motorola.AutomaticRegistrationService.MessageHeaderBits)
    (hh : sc.root.attrs.lookup "message_header" = some (view (Dmr.Motorola.AutomaticRegistrationService.MessageHeaderBits.toPy h))) :
    parse (n + 2) sc Motorola.AutomaticRegistrationService.AcknowledgementMessage = (fun x => view (Dmr.Motorola.AutomaticRegistrationService.AcknowledgementMessage.toPy x)) <$> Dmr.Motorola.AutomaticRegistrationService.AcknowledgementMessage.read h := by
  rw [parse_succ]
  ksy_simp [Dmr.Motorola.AutomaticRegistrationService.AcknowledgementMessage.read, Dmr.Motorola.AutomaticRegistrationService.AcknowledgementMessage.toPy, hh, AutomaticRegistrationService_get_extension_bit,
    AutomaticRegistrationService_get_acknowledgement_bit]

/-- okdmr/kaitai/motorola/automatic_registration_service.ksy:90-90 against `Dmr.Motorola.AutomaticRegistrationService.DeviceDeregistrationMessage`. -/
@[ksy ↓] theorem AutomaticRegistrationService_DeviceDeregistrationMessage_conforms (n : Nat) (sc : Scope) :
    parse (n + 1) sc Motorola.AutomaticRegistrationService.DeviceDeregistrationMessage = (fun x => view (Dmr.Motorola.AutomaticRegistrationService.DeviceDeregistrationMessage.toPy x)) <$> Dmr.Motorola.AutomaticRegistrationService.DeviceDeregistrationMessage.read := by
  rw [parse_succ]
  ksy_simp [Dmr.Motorola.AutomaticRegistrationService.DeviceDeregistrationMessage.read, Dmr.Motorola.AutomaticRegistrationService.DeviceDeregistrationMessage.toPy]

/-- okdmr/kaitai/motorola/automatic_registration_service.ksy:92-92 against `Dmr.Motorola.AutomaticRegistrationService.ArsQueryMessage`. -/
@[ksy ↓] theorem AutomaticRegistrationService_ArsQueryMessage_conforms (n : Nat) (sc : Scope) :
    parse (n + 1) sc Motorola.AutomaticRegistrationService.ArsQueryMessage = (fun x => view (Dmr.Motorola.AutomaticRegistrationService.ArsQueryMessage.toPy x)) <$> Dmr.Motorola.AutomaticRegistrationService.ArsQueryMessage.read := by
  rw [parse_succ]
  ksy_simp [Dmr.Motorola.AutomaticRegistrationService.ArsQueryMessage.read, Dmr.Motorola.AutomaticRegistrationService.ArsQueryMessage.toPy]

/-- okdmr/kaitai/motorola/automatic_registration_service.ksy against `Dmr.Motorola.AutomaticRegistrationService`. -/
@[ksy ↓] theorem AutomaticRegistrationService_conforms (n : Nat) (sc : Scope) :
    parse (n + 3) sc Motorola.AutomaticRegistrationService = (fun x => view (Dmr.Motorola.AutomaticRegistrationService.toPy x)) <$> Dmr.Motorola.AutomaticRegistrationService.read := by
  rw [parse_succ]
  ksy_simp [Dmr.Motorola.AutomaticRegistrationService.read, Dmr.Motorola.AutomaticRegistrationService.toPy, AutomaticRegistrationService_get_pdu_type]
  ksy_same
  rename Dmr.Motorola.AutomaticRegistrationService.MessageHeaderBits => h
  ksy_simp [AutomaticRegistrationService_DeviceRegistrationMessage_conforms _ _ h,
    AutomaticRegistrationService_AcknowledgementMessage_conforms _ _ h, Dmr.Motorola.AutomaticRegistrationService.readPduContent,
    same_cast_0, same_cast_1, same_cast_4, same_cast_15]
  split
  · ksy_simp [Dmr.Motorola.AutomaticRegistrationService.PduContentUnion.toPy]
  split
  · ksy_simp [Dmr.Motorola.AutomaticRegistrationService.PduContentUnion.toPy]
  split
  · ksy_simp [Dmr.Motorola.AutomaticRegistrationService.PduContentUnion.toPy]
  by_cases h15 : h.pdu_type = 15
  · ksy_simp [Dmr.Motorola.AutomaticRegistrationService.PduContentUnion.toPy, h15, same_cast_15]
  · ksy_simp [Dmr.Motorola.AutomaticRegistrationService.PduContentUnion.toPy, h15, same_cast_15]

end Dmr.Ksy.Motorola
