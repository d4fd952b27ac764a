import Verif.Py.Base
/-
Generated by tools/mkpyconform.py: the source file of `Motorola.AutomaticRegistrationService` against the model of its classes.
-/

set_option autoImplicit false
set_option linter.unusedSimpArgs false
set_option maxHeartbeats 1000000

namespace Dmr.Py.ConformMotorola

theorem AutomaticRegistrationService.file : files[25]? = some Source.Motorola.AutomaticRegistrationService.file := rfl

theorem enum_AutomaticRegistrationService_RegistrationEvents : library.enums.find? (fun e => e.qualified == "Motorola.AutomaticRegistrationService.RegistrationEvents") = some Source.Motorola.AutomaticRegistrationService.RegistrationEvents := enum_at 25 _ AutomaticRegistrationService.file 0 Source.Motorola.AutomaticRegistrationService.RegistrationEvents rfl

@[py] theorem resolve_AutomaticRegistrationService_RegistrationEvents (v : Nat) : resolve library "Motorola.AutomaticRegistrationService.RegistrationEvents" (.pv (.int (v : Int))) =
    pure (.pv (EnumVal.toPy "RegistrationEvents" (resolveEnum Dmr.Motorola.AutomaticRegistrationService.RegistrationEvents v))) := run_resolve Source.Motorola.AutomaticRegistrationService.RegistrationEvents enum_AutomaticRegistrationService_RegistrationEvents (by decide) v

theorem enum_AutomaticRegistrationService_FailureReasons : library.enums.find? (fun e => e.qualified == "Motorola.AutomaticRegistrationService.FailureReasons") = some Source.Motorola.AutomaticRegistrationService.FailureReasons := enum_at 25 _ AutomaticRegistrationService.file 1 Source.Motorola.AutomaticRegistrationService.FailureReasons rfl

@[py] theorem resolve_AutomaticRegistrationService_FailureReasons (v : Nat) : resolve library "Motorola.AutomaticRegistrationService.FailureReasons" (.pv (.int (v : Int))) =
    pure (.pv (EnumVal.toPy "FailureReasons" (resolveEnum Dmr.Motorola.AutomaticRegistrationService.FailureReasons v))) := run_resolve Source.Motorola.AutomaticRegistrationService.FailureReasons enum_AutomaticRegistrationService_FailureReasons (by decide) v

theorem AutomaticRegistrationService_DeviceRegistrationAcknowledgementHeader_class : library.class "Motorola.AutomaticRegistrationService.DeviceRegistrationAcknowledgementHeader" = some Source.Motorola.AutomaticRegistrationService.DeviceRegistrationAcknowledgementHeader := class_at 25 _ AutomaticRegistrationService.file 7 Source.Motorola.AutomaticRegistrationService.DeviceRegistrationAcknowledgementHeader rfl

/-- okdmr/kaitai/motorola/automatic_registration_service.py:178-189 against `Dmr.Motorola.AutomaticRegistrationService.DeviceRegistrationAcknowledgementHeader`. -/
@[py] theorem AutomaticRegistrationService_DeviceRegistrationAcknowledgementHeader_builds (n : Nat) (H : List Obj) (S : List Stream) (k : Nat) (hk : k < S.length) (s : Stream)
    (parent root : Val) : ((calls library (n + 3)).construct "Motorola.AutomaticRegistrationService.DeviceRegistrationAcknowledgementHeader" [.io k, parent, root]).run ⟨H, S.set k s⟩ =
      after Dmr.Motorola.AutomaticRegistrationService.DeviceRegistrationAcknowledgementHeader.read s (fun e s' => .raise e ⟨H, S.set k s'⟩)
        (built Dmr.Motorola.AutomaticRegistrationService.DeviceRegistrationAcknowledgementHeader.toPy k parent root H S) := by
  rw [construct_eq library _ "Motorola.AutomaticRegistrationService.DeviceRegistrationAcknowledgementHeader" _ _ AutomaticRegistrationService_DeviceRegistrationAcknowledgementHeader_class rfl rfl]
  py_run [onStream_set _ _ _ _ hk, hk, Dmr.Motorola.AutomaticRegistrationService.DeviceRegistrationAcknowledgementHeader.read, Dmr.Motorola.AutomaticRegistrationService.DeviceRegistrationAcknowledgementHeader.toPy]

@[py] theorem AutomaticRegistrationService_DeviceRegistrationAcknowledgementHeader_place (io parent root : Val) (b : Nat) (x : Dmr.Motorola.AutomaticRegistrationService.DeviceRegistrationAcknowledgementHeader) :
    place io parent root b x.toPy = (.obj b, placeObj io parent root b x.toPy) :=
  place_part _ _ _ _ _ _ (by decide)

theorem AutomaticRegistrationService_DeviceRegistrationAcknowledgementFailureReason_class : library.class "Motorola.AutomaticRegistrationService.DeviceRegistrationAcknowledgementFailureReason" = some Source.Motorola.AutomaticRegistrationService.DeviceRegistrationAcknowledgementFailureReason := class_at 25 _ AutomaticRegistrationService.file 4 Source.Motorola.AutomaticRegistrationService.DeviceRegistrationAcknowledgementFailureReason rfl

/-- okdmr/kaitai/motorola/automatic_registration_service.py:121-135 against `Dmr.Motorola.AutomaticRegistrationService.DeviceRegistrationAcknowledgementFailureReason`. -/
@[py] theorem AutomaticRegistrationService_DeviceRegistrationAcknowledgementFailureReason_builds (n : Nat) (H : List Obj) (S : List Stream) (k : Nat) (hk : k < S.length) (s : Stream)
    (parent root : Val) : ((calls library (n + 3)).construct "Motorola.AutomaticRegistrationService.DeviceRegistrationAcknowledgementFailureReason" [.io k, parent, root]).run ⟨H, S.set k s⟩ =
      after Dmr.Motorola.AutomaticRegistrationService.DeviceRegistrationAcknowledgementFailureReason.read s (fun e s' => .raise e ⟨H, S.set k s'⟩)
        (built Dmr.Motorola.AutomaticRegistrationService.DeviceRegistrationAcknowledgementFailureReason.toPy k parent root H S) := by
  rw [construct_eq library _ "Motorola.AutomaticRegistrationService.DeviceRegistrationAcknowledgementFailureReason" _ _ AutomaticRegistrationService_DeviceRegistrationAcknowledgementFailureReason_class rfl rfl]
  py_run [onStream_set _ _ _ _ hk, hk, Dmr.Motorola.AutomaticRegistrationService.DeviceRegistrationAcknowledgementFailureReason.read, Dmr.Motorola.AutomaticRegistrationService.DeviceRegistrationAcknowledgementFailureReason.toPy]

@[py] theorem AutomaticRegistrationService_DeviceRegistrationAcknowledgementFailureReason_place (io parent root : Val) (b : Nat) (x : Dmr.Motorola.AutomaticRegistrationService.DeviceRegistrationAcknowledgementFailureReason) :
    place io parent root b x.toPy = (.obj b, placeObj io parent root b x.toPy) :=
  place_part _ _ _ _ _ _ (by decide)

theorem AutomaticRegistrationService_AcknowledgementMessage_class : library.class "Motorola.AutomaticRegistrationService.AcknowledgementMessage" = some Source.Motorola.AutomaticRegistrationService.AcknowledgementMessage := class_at 25 _ AutomaticRegistrationService.file 0 Source.Motorola.AutomaticRegistrationService.AcknowledgementMessage rfl

/-- okdmr/kaitai/motorola/automatic_registration_service.py:56-78 against `Dmr.Motorola.AutomaticRegistrationService.AcknowledgementMessage`: it looks up bits of the `message_header` of its `_root`. -/
theorem AutomaticRegistrationService_AcknowledgementMessage_builds_at (n : Nat) (H : List Obj) (S : List Stream) (k : Nat) (hk : k < S.length) (s : Stream)
    (q m : Nat) (o oh : Obj) (x : Dmr.Motorola.AutomaticRegistrationService.MessageHeaderBits) (hq : H[q]? = some o) (hm : o.attrs.lookup "message_header" = some (.obj m)) (hh : H[m]? = some oh)
    (h1 : oh.attrs.lookup "extension_bit" = some (.pv (.bool x.extension_bit))) (h2 : oh.attrs.lookup "acknowledgement_bit" = some (.pv (.bool x.acknowledgement_bit))) (parent : Val) :
    ((calls library (n + 5)).construct "Motorola.AutomaticRegistrationService.AcknowledgementMessage" [.io k, parent, .obj q]).run ⟨H, S.set k s⟩ =
      after (Dmr.Motorola.AutomaticRegistrationService.AcknowledgementMessage.read x) s (fun e s' => .raise e ⟨H, S.set k s'⟩)
        (built Dmr.Motorola.AutomaticRegistrationService.AcknowledgementMessage.toPy k parent (.obj q) H S) := by
  rw [construct_eq library _ "Motorola.AutomaticRegistrationService.AcknowledgementMessage" _ _ AutomaticRegistrationService_AcknowledgementMessage_class rfl rfl]
  py_run [onStream_set _ _ _ _ hk, hk, fetch_old hq, fetch_old hh, hm, h1, h2, Dmr.Motorola.AutomaticRegistrationService.AcknowledgementMessage.read, Dmr.Motorola.AutomaticRegistrationService.AcknowledgementMessage.toPy]

@[py] theorem AutomaticRegistrationService_AcknowledgementMessage_place (io parent root : Val) (b : Nat) (x : Dmr.Motorola.AutomaticRegistrationService.AcknowledgementMessage) :
    place io parent root b x.toPy = (.obj b, placeObj io parent root b x.toPy) :=
  place_part _ _ _ _ _ _ (by decide)

theorem AutomaticRegistrationService_DeviceRegistrationMessageHeader_class : library.class "Motorola.AutomaticRegistrationService.DeviceRegistrationMessageHeader" = some Source.Motorola.AutomaticRegistrationService.DeviceRegistrationMessageHeader := class_at 25 _ AutomaticRegistrationService.file 1 Source.Motorola.AutomaticRegistrationService.DeviceRegistrationMessageHeader rfl

/-- okdmr/kaitai/motorola/automatic_registration_service.py:80-93 against `Dmr.Motorola.AutomaticRegistrationService.DeviceRegistrationMessageHeader`. -/
@[py] theorem AutomaticRegistrationService_DeviceRegistrationMessageHeader_builds (n : Nat) (H : List Obj) (S : List Stream) (k : Nat) (hk : k < S.length) (s : Stream)
    (parent root : Val) : ((calls library (n + 3)).construct "Motorola.AutomaticRegistrationService.DeviceRegistrationMessageHeader" [.io k, parent, root]).run ⟨H, S.set k s⟩ =
      after Dmr.Motorola.AutomaticRegistrationService.DeviceRegistrationMessageHeader.read s (fun e s' => .raise e ⟨H, S.set k s'⟩)
        (built Dmr.Motorola.AutomaticRegistrationService.DeviceRegistrationMessageHeader.toPy k parent root H S) := by
  rw [construct_eq library _ "Motorola.AutomaticRegistrationService.DeviceRegistrationMessageHeader" _ _ AutomaticRegistrationService_DeviceRegistrationMessageHeader_class rfl rfl]
  py_run [onStream_set _ _ _ _ hk, hk, Dmr.Motorola.AutomaticRegistrationService.DeviceRegistrationMessageHeader.read, Dmr.Motorola.AutomaticRegistrationService.DeviceRegistrationMessageHeader.toPy]

@[py] theorem AutomaticRegistrationService_DeviceRegistrationMessageHeader_place (io parent root : Val) (b : Nat) (x : Dmr.Motorola.AutomaticRegistrationService.DeviceRegistrationMessageHeader) :
    place io parent root b x.toPy = (.obj b, placeObj io parent root b x.toPy) :=
  place_part _ _ _ _ _ _ (by decide)

theorem AutomaticRegistrationService_MessageHeaderBits_class : library.class "Motorola.AutomaticRegistrationService.MessageHeaderBits" = some Source.Motorola.AutomaticRegistrationService.MessageHeaderBits := class_at 25 _ AutomaticRegistrationService.file 2 Source.Motorola.AutomaticRegistrationService.MessageHeaderBits rfl

/-- okdmr/kaitai/motorola/automatic_registration_service.py:95-107 against `Dmr.Motorola.AutomaticRegistrationService.MessageHeaderBits`. -/
@[py] theorem AutomaticRegistrationService_MessageHeaderBits_builds (n : Nat) (H : List Obj) (S : List Stream) (k : Nat) (hk : k < S.length) (s : Stream)
    (parent root : Val) : ((calls library (n + 3)).construct "Motorola.AutomaticRegistrationService.MessageHeaderBits" [.io k, parent, root]).run ⟨H, S.set k s⟩ =
      after Dmr.Motorola.AutomaticRegistrationService.MessageHeaderBits.read s (fun e s' => .raise e ⟨H, S.set k s'⟩)
        (built Dmr.Motorola.AutomaticRegistrationService.MessageHeaderBits.toPy k parent root H S) := by
  rw [construct_eq library _ "Motorola.AutomaticRegistrationService.MessageHeaderBits" _ _ AutomaticRegistrationService_MessageHeaderBits_class rfl rfl]
  py_run [onStream_set _ _ _ _ hk, hk, Dmr.Motorola.AutomaticRegistrationService.MessageHeaderBits.read, Dmr.Motorola.AutomaticRegistrationService.MessageHeaderBits.toPy]

@[py] theorem AutomaticRegistrationService_MessageHeaderBits_place (io parent root : Val) (b : Nat) (x : Dmr.Motorola.AutomaticRegistrationService.MessageHeaderBits) :
    place io parent root b x.toPy = (.obj b, placeObj io parent root b x.toPy) :=
  place_part _ _ _ _ _ _ (by decide)

theorem AutomaticRegistrationService_DeviceDeregistrationMessage_class : library.class "Motorola.AutomaticRegistrationService.DeviceDeregistrationMessage" = some Source.Motorola.AutomaticRegistrationService.DeviceDeregistrationMessage := class_at 25 _ AutomaticRegistrationService.file 3 Source.Motorola.AutomaticRegistrationService.DeviceDeregistrationMessage rfl

/-- okdmr/kaitai/motorola/automatic_registration_service.py:109-119 against `Dmr.Motorola.AutomaticRegistrationService.DeviceDeregistrationMessage`. -/
@[py] theorem AutomaticRegistrationService_DeviceDeregistrationMessage_builds (n : Nat) (H : List Obj) (S : List Stream) (k : Nat) (hk : k < S.length) (s : Stream)
    (parent root : Val) : ((calls library (n + 3)).construct "Motorola.AutomaticRegistrationService.DeviceDeregistrationMessage" [.io k, parent, root]).run ⟨H, S.set k s⟩ =
      after Dmr.Motorola.AutomaticRegistrationService.DeviceDeregistrationMessage.read s (fun e s' => .raise e ⟨H, S.set k s'⟩)
        (built Dmr.Motorola.AutomaticRegistrationService.DeviceDeregistrationMessage.toPy k parent root H S) := by
  rw [construct_eq library _ "Motorola.AutomaticRegistrationService.DeviceDeregistrationMessage" _ _ AutomaticRegistrationService_DeviceDeregistrationMessage_class rfl rfl]
  py_run [onStream_set _ _ _ _ hk, hk, Dmr.Motorola.AutomaticRegistrationService.DeviceDeregistrationMessage.read, Dmr.Motorola.AutomaticRegistrationService.DeviceDeregistrationMessage.toPy]

@[py] theorem AutomaticRegistrationService_DeviceDeregistrationMessage_place (io parent root : Val) (b : Nat) (x : Dmr.Motorola.AutomaticRegistrationService.DeviceDeregistrationMessage) :
    place io parent root b x.toPy = (.obj b, placeObj io parent root b x.toPy) :=
  place_part _ _ _ _ _ _ (by decide)

theorem AutomaticRegistrationService_DeviceRegistrationMessage_class : library.class "Motorola.AutomaticRegistrationService.DeviceRegistrationMessage" = some Source.Motorola.AutomaticRegistrationService.DeviceRegistrationMessage := class_at 25 _ AutomaticRegistrationService.file 5 Source.Motorola.AutomaticRegistrationService.DeviceRegistrationMessage rfl

/-- okdmr/kaitai/motorola/automatic_registration_service.py:137-164 against `Dmr.Motorola.AutomaticRegistrationService.DeviceRegistrationMessage`: it looks up bits of the `message_header` of its `_root`. -/
theorem AutomaticRegistrationService_DeviceRegistrationMessage_builds_at (n : Nat) (H : List Obj) (S : List Stream) (k : Nat) (hk : k < S.length) (s : Stream)
    (q m : Nat) (o oh : Obj) (x : Dmr.Motorola.AutomaticRegistrationService.MessageHeaderBits) (hq : H[q]? = some o) (hm : o.attrs.lookup "message_header" = some (.obj m)) (hh : H[m]? = some oh)
    (h1 : oh.attrs.lookup "extension_bit" = some (.pv (.bool x.extension_bit))) (h2 : oh.attrs.lookup "acknowledgement_bit" = some (.pv (.bool x.acknowledgement_bit))) (parent : Val) :
    ((calls library (n + 5)).construct "Motorola.AutomaticRegistrationService.DeviceRegistrationMessage" [.io k, parent, .obj q]).run ⟨H, S.set k s⟩ =
      after (Dmr.Motorola.AutomaticRegistrationService.DeviceRegistrationMessage.read x) s (fun e s' => .raise e ⟨H, S.set k s'⟩)
        (built Dmr.Motorola.AutomaticRegistrationService.DeviceRegistrationMessage.toPy k parent (.obj q) H S) := by
  rw [construct_eq library _ "Motorola.AutomaticRegistrationService.DeviceRegistrationMessage" _ _ AutomaticRegistrationService_DeviceRegistrationMessage_class rfl rfl]
  py_run [onStream_set _ _ _ _ hk, hk, fetch_old hq, fetch_old hh, hm, h1, h2, Dmr.Motorola.AutomaticRegistrationService.DeviceRegistrationMessage.read, Dmr.Motorola.AutomaticRegistrationService.DeviceRegistrationMessage.toPy]

@[py] theorem AutomaticRegistrationService_DeviceRegistrationMessage_place (io parent root : Val) (b : Nat) (x : Dmr.Motorola.AutomaticRegistrationService.DeviceRegistrationMessage) :
    place io parent root b x.toPy = (.obj b, placeObj io parent root b x.toPy) :=
  place_part _ _ _ _ _ _ (by decide)

theorem AutomaticRegistrationService_ArsQueryMessage_class : library.class "Motorola.AutomaticRegistrationService.ArsQueryMessage" = some Source.Motorola.AutomaticRegistrationService.ArsQueryMessage := class_at 25 _ AutomaticRegistrationService.file 6 Source.Motorola.AutomaticRegistrationService.ArsQueryMessage rfl

/-- okdmr/kaitai/motorola/automatic_registration_service.py:166-176 against `Dmr.Motorola.AutomaticRegistrationService.ArsQueryMessage`. -/
@[py] theorem AutomaticRegistrationService_ArsQueryMessage_builds (n : Nat) (H : List Obj) (S : List Stream) (k : Nat) (hk : k < S.length) (s : Stream)
    (parent root : Val) : ((calls library (n + 3)).construct "Motorola.AutomaticRegistrationService.ArsQueryMessage" [.io k, parent, root]).run ⟨H, S.set k s⟩ =
      after Dmr.Motorola.AutomaticRegistrationService.ArsQueryMessage.read s (fun e s' => .raise e ⟨H, S.set k s'⟩)
        (built Dmr.Motorola.AutomaticRegistrationService.ArsQueryMessage.toPy k parent root H S) := by
  rw [construct_eq library _ "Motorola.AutomaticRegistrationService.ArsQueryMessage" _ _ AutomaticRegistrationService_ArsQueryMessage_class rfl rfl]
  py_run [onStream_set _ _ _ _ hk, hk, Dmr.Motorola.AutomaticRegistrationService.ArsQueryMessage.read, Dmr.Motorola.AutomaticRegistrationService.ArsQueryMessage.toPy]

@[py] theorem AutomaticRegistrationService_ArsQueryMessage_place (io parent root : Val) (b : Nat) (x : Dmr.Motorola.AutomaticRegistrationService.ArsQueryMessage) :
    place io parent root b x.toPy = (.obj b, placeObj io parent root b x.toPy) :=
  place_part _ _ _ _ _ _ (by decide)

theorem AutomaticRegistrationService_class : library.class "Motorola.AutomaticRegistrationService" = some Source.Motorola.AutomaticRegistrationService := class_at 25 _ AutomaticRegistrationService.file 8 Source.Motorola.AutomaticRegistrationService rfl

@[py] theorem AutomaticRegistrationService_DeviceRegistrationMessage_builds (n : Nat) (H : List Obj) (S : List Stream) (k : Nat) (hk : k < S.length) (s : Stream) (parent root a3 : Val)
    (x : Dmr.Motorola.AutomaticRegistrationService.MessageHeaderBits) :
    ((calls library (n + 5)).construct "Motorola.AutomaticRegistrationService.DeviceRegistrationMessage" [.io k, .obj H.length, .obj H.length]).run ⟨H ++ ⟨"Motorola.AutomaticRegistrationService", [("_io", .io k), ("_parent", parent), ("_root", root), ("message_size", a3), ("message_header", .obj (H.length + 1))]⟩ :: placeObj (.io k) (.obj H.length) root (H.length + 1) x.toPy, S.set k s⟩ =
      after (Dmr.Motorola.AutomaticRegistrationService.DeviceRegistrationMessage.read x) s (fun e s' => .raise e ⟨H ++ ⟨"Motorola.AutomaticRegistrationService", [("_io", .io k), ("_parent", parent), ("_root", root), ("message_size", a3), ("message_header", .obj (H.length + 1))]⟩ :: placeObj (.io k) (.obj H.length) root (H.length + 1) x.toPy, S.set k s'⟩)
        (built Dmr.Motorola.AutomaticRegistrationService.DeviceRegistrationMessage.toPy k (.obj H.length) (.obj H.length) (H ++ ⟨"Motorola.AutomaticRegistrationService", [("_io", .io k), ("_parent", parent), ("_root", root), ("message_size", a3), ("message_header", .obj (H.length + 1))]⟩ :: placeObj (.io k) (.obj H.length) root (H.length + 1) x.toPy) S) := by
  obtain ⟨oh, h1, h2, h3⟩ : ∃ oh, (H ++ ⟨"Motorola.AutomaticRegistrationService", [("_io", .io k), ("_parent", parent), ("_root", root), ("message_size", a3), ("message_header", .obj (H.length + 1))]⟩ :: placeObj (.io k) (.obj H.length) root (H.length + 1) x.toPy)[H.length + 1]? = some oh ∧ oh.attrs.lookup "extension_bit" = some (.pv (.bool x.extension_bit)) ∧
      oh.attrs.lookup "acknowledgement_bit" = some (.pv (.bool x.acknowledgement_bit)) := ⟨_, by simp [Dmr.Motorola.AutomaticRegistrationService.MessageHeaderBits.toPy, placeObj_object]; rfl, rfl, rfl⟩
  exact AutomaticRegistrationService_DeviceRegistrationMessage_builds_at n _ S k hk s H.length (H.length + 1) ⟨"Motorola.AutomaticRegistrationService", [("_io", .io k), ("_parent", parent), ("_root", root), ("message_size", a3), ("message_header", .obj (H.length + 1))]⟩ oh x (by simp) rfl h1 h2 h3 _

@[py] theorem AutomaticRegistrationService_AcknowledgementMessage_builds (n : Nat) (H : List Obj) (S : List Stream) (k : Nat) (hk : k < S.length) (s : Stream) (parent root a3 : Val)
    (x : Dmr.Motorola.AutomaticRegistrationService.MessageHeaderBits) :
    ((calls library (n + 5)).construct "Motorola.AutomaticRegistrationService.AcknowledgementMessage" [.io k, .obj H.length, .obj H.length]).run ⟨H ++ ⟨"Motorola.AutomaticRegistrationService", [("_io", .io k), ("_parent", parent), ("_root", root), ("message_size", a3), ("message_header", .obj (H.length + 1))]⟩ :: placeObj (.io k) (.obj H.length) root (H.length + 1) x.toPy, S.set k s⟩ =
      after (Dmr.Motorola.AutomaticRegistrationService.AcknowledgementMessage.read x) s (fun e s' => .raise e ⟨H ++ ⟨"Motorola.AutomaticRegistrationService", [("_io", .io k), ("_parent", parent), ("_root", root), ("message_size", a3), ("message_header", .obj (H.length + 1))]⟩ :: placeObj (.io k) (.obj H.length) root (H.length + 1) x.toPy, S.set k s'⟩)
        (built Dmr.Motorola.AutomaticRegistrationService.AcknowledgementMessage.toPy k (.obj H.length) (.obj H.length) (H ++ ⟨"Motorola.AutomaticRegistrationService", [("_io", .io k), ("_parent", parent), ("_root", root), ("message_size", a3), ("message_header", .obj (H.length + 1))]⟩ :: placeObj (.io k) (.obj H.length) root (H.length + 1) x.toPy) S) := by
  obtain ⟨oh, h1, h2, h3⟩ : ∃ oh, (H ++ ⟨"Motorola.AutomaticRegistrationService", [("_io", .io k), ("_parent", parent), ("_root", root), ("message_size", a3), ("message_header", .obj (H.length + 1))]⟩ :: placeObj (.io k) (.obj H.length) root (H.length + 1) x.toPy)[H.length + 1]? = some oh ∧ oh.attrs.lookup "extension_bit" = some (.pv (.bool x.extension_bit)) ∧
      oh.attrs.lookup "acknowledgement_bit" = some (.pv (.bool x.acknowledgement_bit)) := ⟨_, by simp [Dmr.Motorola.AutomaticRegistrationService.MessageHeaderBits.toPy, placeObj_object]; rfl, rfl, rfl⟩
  exact AutomaticRegistrationService_AcknowledgementMessage_builds_at n _ S k hk s H.length (H.length + 1) ⟨"Motorola.AutomaticRegistrationService", [("_io", .io k), ("_parent", parent), ("_root", root), ("message_size", a3), ("message_header", .obj (H.length + 1))]⟩ oh x (by simp) rfl h1 h2 h3 _

theorem AutomaticRegistrationService_fetch (H : List Obj) (o : Obj) (io parent root : Val) (b : Nat)
    (x : Dmr.Motorola.AutomaticRegistrationService.MessageHeaderBits) (S : List Stream) :
    (fetch (H.length + 1)).run ⟨H ++ o :: placeObj io parent root b x.toPy, S⟩ =
      .ok ⟨"Motorola.AutomaticRegistrationService.MessageHeaderBits", [("_io", io), ("_parent", parent), ("_root", root),
        ("extension_bit", .pv (.bool x.extension_bit)), ("acknowledgement_bit", .pv (.bool x.acknowledgement_bit)), ("priority", .pv (.bool x.priority)),
        ("control_user_bit", .pv (.bool x.control_user_bit)), ("pdu_type", .pv (.int (x.pdu_type : Int)))]⟩
        ⟨H ++ o :: placeObj io parent root b x.toPy, S⟩ := by
  unfold Dmr.Motorola.AutomaticRegistrationService.MessageHeaderBits.toPy
  rw [fetch_part']
  py_run []

/-- okdmr/kaitai/motorola/automatic_registration_service.py:15-189 against `Dmr.Motorola.AutomaticRegistrationService`, made as `AutomaticRegistrationService(io)`. -/
theorem AutomaticRegistrationService_builds (n : Nat) (H : List Obj) (S : List Stream) (k : Nat) (hk : k < S.length) (s : Stream) :
    ((calls library (n + 7)).construct "Motorola.AutomaticRegistrationService" [.io k, .pv .none, .pv .none]).run ⟨H, S.set k s⟩ =
      after Dmr.Motorola.AutomaticRegistrationService.read s (fun e s' => .raise e ⟨H, S.set k s'⟩)
        (built Dmr.Motorola.AutomaticRegistrationService.toPy k (.pv .none) (.pv .none) H S) := by
  rw [construct_eq library _ "Motorola.AutomaticRegistrationService" _ _ AutomaticRegistrationService_class rfl rfl]
  py_run [AutomaticRegistrationService_fetch, onStream_set _ _ _ _ hk, hk, Dmr.Motorola.AutomaticRegistrationService.read, Dmr.Motorola.AutomaticRegistrationService.toPy, Dmr.Motorola.AutomaticRegistrationService.readPduContent, Dmr.Motorola.AutomaticRegistrationService.PduContentUnion.toPy]

@[py] theorem AutomaticRegistrationService_short (n k : Nat) : (calls library (n + 7)).construct "Motorola.AutomaticRegistrationService" [.io k] =
    (calls library (n + 7)).construct "Motorola.AutomaticRegistrationService" [.io k, .pv .none, .pv .none] := construct_short _ _ _ _ AutomaticRegistrationService_class rfl _

@[py] theorem AutomaticRegistrationService_place (io parent root : Val) (b : Nat) (x : Dmr.Motorola.AutomaticRegistrationService) :
    place io parent root b x.toPy = (.obj b, placeObj io (.pv .none) (.obj b) b x.toPy) :=
  place_file _ _ _ _ _ _ (by decide)

end Dmr.Py.ConformMotorola
