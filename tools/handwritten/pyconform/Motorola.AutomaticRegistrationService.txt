@[py] theorem AutomaticRegistrationService_DeviceRegistrationMessage_builds (n : Nat) (H : List Obj) (S : List Stream) (k : Nat) (hk : k < S.length) (s : Stream) (parent root a3 : Val)
    (x : Dmr.Motorola.AutomaticRegistrationService.MessageHeaderBits) :
    ((calls library (n + 5)).construct "Motorola.AutomaticRegistrationService.DeviceRegistrationMessage" [.io k, .obj H.length, .obj H.length]).run ⟨H ++ ⟨"Motorola.AutomaticRegistrationService", [("_io", .io k), ("_parent", parent), ("_root", root), ("message_size", a3), ("message_header", .obj (H.length + 1))]⟩ :: placeObj (.io k) (.obj H.length) root (H.length + 1) x.toPy, S.set k s⟩ =
      after (Dmr.Motorola.AutomaticRegistrationService.DeviceRegistrationMessage.read x) s (fun e s' => .raise e ⟨H ++ ⟨"Motorola.AutomaticRegistrationService", [("_io", .io k), ("_parent", parent), ("_root", root), ("message_size", a3), ("message_header", .obj (H.length + 1))]⟩ :: placeObj (.io k) (.obj H.length) root (H.length + 1) x.toPy, S.set k s'⟩)
        (built Dmr.Motorola.AutomaticRegistrationService.DeviceRegistrationMessage.toPy k (.obj H.length) (.obj H.length) (H ++ ⟨"Motorola.AutomaticRegistrationService", [("_io", .io k), ("_parent", parent), ("_root", root), ("message_size", a3), ("message_header", .obj (H.length + 1))]⟩ :: placeObj (.io k) (.obj H.length) root (H.length + 1) x.toPy) S) := by
  obtain ⟨oh, h1, h2, h3⟩ : ∃ oh, (H ++ ⟨"Motorola.AutomaticRegistrationService", [("_io", .io k), ("_parent", parent), ("_root", root), ("message_size", a3), ("message_header", .obj (H.length + 1))]⟩ :: placeObj (.io k) (.obj H.length) root (H.length + 1) x.toPy)[H.length + 1]? = some oh ∧ oh.attrs.lookup "extension_bit" = some (.pv (.bool x.extension_bit)) ∧
      oh.attrs.lookup "acknowledgement_bit" = some (.pv (.bool x.acknowledgement_bit)) := ⟨_, by simp [Dmr.Motorola.AutomaticRegistrationService.MessageHeaderBits.toPy, placeObj_object]; rfl, rfl, rfl⟩
  exact AutomaticRegistrationService_DeviceRegistrationMessage_builds_at n _ S k hk s H.length (H.length + 1) ⟨"Motorola.AutomaticRegistrationService", [("_io", .io k), ("_parent", parent), ("_root", root), ("message_size", a3), ("message_header", .obj (H.length + 1))]⟩ oh x (by simp) rfl h1 h2 h3 _

@[py] theorem AutomaticRegistrationService_AcknowledgementMessage_builds (n : Nat) (H : List Obj) (S : List Stream) (k : Nat) (hk : k < S.length) (s : Stream) (parent root a3 : Val)
    (x : Dmr.Motorola.AutomaticRegistrationService.MessageHeaderBits) :
    ((calls library (n + 5)).construct "Motorola.AutomaticRegistrationService.AcknowledgementMessage" [.io k, .obj H.length, .obj H.length]).run ⟨H ++ ⟨"Motorola.AutomaticRegistrationService", [("_io", .io k), ("_parent", parent), ("_root", root), ("message_size", a3), ("message_header", .obj (H.length + 1))]⟩ :: placeObj (.io k) (.obj H.length) root (H.length + 1) x.toPy, S.set k s⟩ =
      after (Dmr.Motorola.AutomaticRegistrationService.AcknowledgementMessage.read x) s (fun e s' => .raise e ⟨H ++ ⟨"Motorola.AutomaticRegistrationService", [("_io", .io k), ("_parent", parent), ("_root", root), ("message_size", a3), ("message_header", .obj (H.length + 1))]⟩ :: placeObj (.io k) (.obj H.length) root (H.length + 1) x.toPy, S.set k s'⟩)
        (built Dmr.Motorola.AutomaticRegistrationService.AcknowledgementMessage.toPy k (.obj H.length) (.obj H.length) (H ++ ⟨"Motorola.AutomaticRegistrationService", [("_io", .io k), ("_parent", parent), ("_root", root), ("message_size", a3), ("message_header", .obj (H.length + 1))]⟩ :: placeObj (.io k) (.obj H.length) root (H.length + 1) x.toPy) S) := by
  obtain ⟨oh, h1, h2, h3⟩ : ∃ oh, (H ++ ⟨"Motorola.AutomaticRegistrationService", [("_io", .io k), ("_parent", parent), ("_root", root), ("message_size", a3), ("message_header", .obj (H.length + 1))]⟩ :: placeObj (.io k) (.obj H.length) root (H.length + 1) x.toPy)[H.length + 1]? = some oh ∧ oh.attrs.lookup "extension_bit" = some (.pv (.bool x.extension_bit)) ∧
      oh.attrs.lookup "acknowledgement_bit" = some (.pv (.bool x.acknowledgement_bit)) := ⟨_, by simp [Dmr.Motorola.AutomaticRegistrationService.MessageHeaderBits.toPy, placeObj_object]; rfl, rfl, rfl⟩
  exact AutomaticRegistrationService_AcknowledgementMessage_builds_at n _ S k hk s H.length (H.length + 1) ⟨"Motorola.AutomaticRegistrationService", [("_io", .io k), ("_parent", parent), ("_root", root), ("message_size", a3), ("message_header", .obj (H.length + 1))]⟩ oh x (by simp) rfl h1 h2 h3 _

theorem AutomaticRegistrationService_fetch (H : List Obj) (o : Obj) (io parent root : Val) (b : Nat)
    (x : Dmr.Motorola.AutomaticRegistrationService.MessageHeaderBits) (S : List Stream) :
    (fetch (H.length + 1)).run ⟨H ++ o :: placeObj io parent root b x.toPy, S⟩ =
      .ok ⟨"Motorola.AutomaticRegistrationService.MessageHeaderBits", [("_io", io), ("_parent", parent), ("_root", root),
        ("extension_bit", .pv (.bool x.extension_bit)), ("acknowledgement_bit", .pv (.bool x.acknowledgement_bit)), ("priority", .pv (.bool x.priority)),
        ("control_user_bit", .pv (.bool x.control_user_bit)), ("pdu_type", .pv (.int (x.pdu_type : Int)))]⟩
        ⟨H ++ o :: placeObj io parent root b x.toPy, S⟩ := by
  unfold Dmr.Motorola.AutomaticRegistrationService.MessageHeaderBits.toPy
  rw [fetch_part']
  py_run []

/-- okdmr/kaitai/motorola/automatic_registration_service.py:15-189 against `Dmr.Motorola.AutomaticRegistrationService`, made as `AutomaticRegistrationService(io)`. -/
theorem AutomaticRegistrationService_builds (n : Nat) (H : List Obj) (S : List Stream) (k : Nat) (hk : k < S.length) (s : Stream) :
    ((calls library (n + 7)).construct "Motorola.AutomaticRegistrationService" [.io k, .pv .none, .pv .none]).run ⟨H, S.set k s⟩ =
      after Dmr.Motorola.AutomaticRegistrationService.read s (fun e s' => .raise e ⟨H, S.set k s'⟩)
        (built Dmr.Motorola.AutomaticRegistrationService.toPy k (.pv .none) (.pv .none) H S) := by
  rw [construct_eq library _ "Motorola.AutomaticRegistrationService" _ _ AutomaticRegistrationService_class rfl rfl]
  py_run [AutomaticRegistrationService_fetch, onStream_set _ _ _ _ hk, hk, Dmr.Motorola.AutomaticRegistrationService.read, Dmr.Motorola.AutomaticRegistrationService.toPy, Dmr.Motorola.AutomaticRegistrationService.readPduContent, Dmr.Motorola.AutomaticRegistrationService.PduContentUnion.toPy]
