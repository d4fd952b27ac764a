/-- okdmr/kaitai/motorola/automatic_registration_service.py:137-164 against `Dmr.Motorola.AutomaticRegistrationService.DeviceRegistrationMessage`: it looks up bits of the `message_header` of its `_root`. -/
theorem AutomaticRegistrationService_DeviceRegistrationMessage_builds_at (n : Nat) (H : List Obj) (S : List Stream) (k : Nat) (hk : k < S.length) (s : Stream)
    (q m : Nat) (o oh : Obj) (x : Dmr.Motorola.AutomaticRegistrationService.MessageHeaderBits) (hq : H[q]? = some o) (hm : o.attrs.lookup "message_header" = some (.obj m)) (hh : H[m]? = some oh)
    (h1 : oh.attrs.lookup "extension_bit" = some (.pv (.bool x.extension_bit))) (h2 : oh.attrs.lookup "acknowledgement_bit" = some (.pv (.bool x.acknowledgement_bit))) (parent : Val) :
    ((calls library (n + 5)).construct "Motorola.AutomaticRegistrationService.DeviceRegistrationMessage" [.io k, parent, .obj q]).run ⟨H, S.set k s⟩ =
      after (Dmr.Motorola.AutomaticRegistrationService.DeviceRegistrationMessage.read x) s (fun e s' => .raise e ⟨H, S.set k s'⟩)
        (built Dmr.Motorola.AutomaticRegistrationService.DeviceRegistrationMessage.toPy k parent (.obj q) H S) := by
  rw [construct_eq library _ "Motorola.AutomaticRegistrationService.DeviceRegistrationMessage" _ _ AutomaticRegistrationService_DeviceRegistrationMessage_class rfl rfl]
  py_run [onStream_set _ _ _ _ hk, hk, fetch_old hq, fetch_old hh, hm, h1, h2, Dmr.Motorola.AutomaticRegistrationService.DeviceRegistrationMessage.read, Dmr.Motorola.AutomaticRegistrationService.DeviceRegistrationMessage.toPy]
