import Verif.Py.Base
/-
Generated by tools/mkpyconform.py: the source file of `Motorola.TextMessageProtocolMotorola` against the model of its classes.
-/

set_option autoImplicit false
set_option linter.unusedSimpArgs false
set_option maxHeartbeats 1000000

namespace Dmr.Py.ConformMotorola

theorem TextMessageProtocol.file : files[27]? = some Source.Motorola.TextMessageProtocol.file := rfl

theorem enum_TextMessageProtocol_TmsServiceCapability : library.enums.find? (fun e => e.qualified == "Motorola.TextMessageProtocol.TmsServiceCapability") = some Source.Motorola.TextMessageProtocol.TmsServiceCapability := enum_at 27 _ TextMessageProtocol.file 0 Source.Motorola.TextMessageProtocol.TmsServiceCapability rfl

@[py] theorem resolve_TextMessageProtocol_TmsServiceCapability (v : Nat) : resolve library "Motorola.TextMessageProtocol.TmsServiceCapability" (.pv (.int (v : Int))) =
    pure (.pv (EnumVal.toPy "TmsServiceCapability" (resolveEnum Dmr.Motorola.TextMessageProtocol.TmsServiceCapability v))) := run_resolve Source.Motorola.TextMessageProtocol.TmsServiceCapability enum_TextMessageProtocol_TmsServiceCapability (by decide) v

theorem TextMessageProtocol_TextMessageHeaderSequenceAndEncoding_class : library.class "Motorola.TextMessageProtocol.TextMessageHeaderSequenceAndEncoding" = some Source.Motorola.TextMessageProtocol.TextMessageHeaderSequenceAndEncoding := class_at 27 _ TextMessageProtocol.file 2 Source.Motorola.TextMessageProtocol.TextMessageHeaderSequenceAndEncoding rfl

@[py] theorem TextMessageProtocol_TextMessageHeaderSequenceAndEncoding_property (x : String) : library.property "Motorola.TextMessageProtocol.TextMessageHeaderSequenceAndEncoding" x = Source.Motorola.TextMessageProtocol.TextMessageHeaderSequenceAndEncoding.properties.lookup x :=
  property_of _ _ _ _ TextMessageProtocol_TextMessageHeaderSequenceAndEncoding_class

/-- okdmr/kaitai/motorola/text_message_protocol.py:91-118 against `Dmr.Motorola.TextMessageProtocol.TextMessageHeaderSequenceAndEncoding`. -/
@[py] theorem TextMessageProtocol_TextMessageHeaderSequenceAndEncoding_builds (n : Nat) (H : List Obj) (S : List Stream) (k : Nat) (hk : k < S.length) (s : Stream)
    (parent root : Val) : ((calls library (n + 3)).construct "Motorola.TextMessageProtocol.TextMessageHeaderSequenceAndEncoding" [.io k, parent, root]).run ⟨H, S.set k s⟩ =
      after Dmr.Motorola.TextMessageProtocol.TextMessageHeaderSequenceAndEncoding.read s (fun e s' => .raise e ⟨H, S.set k s'⟩)
        (built Dmr.Motorola.TextMessageProtocol.TextMessageHeaderSequenceAndEncoding.toPy k parent root H S) := by
  rw [construct_eq library _ "Motorola.TextMessageProtocol.TextMessageHeaderSequenceAndEncoding" _ _ TextMessageProtocol_TextMessageHeaderSequenceAndEncoding_class rfl rfl]
  py_run [onStream_set _ _ _ _ hk, hk, Dmr.Motorola.TextMessageProtocol.TextMessageHeaderSequenceAndEncoding.read, Dmr.Motorola.TextMessageProtocol.TextMessageHeaderSequenceAndEncoding.toPy, Source.Motorola.TextMessageProtocol.TextMessageHeaderSequenceAndEncoding]

@[py] theorem TextMessageProtocol_TextMessageHeaderSequenceAndEncoding_place (io parent root : Val) (b : Nat) (x : Dmr.Motorola.TextMessageProtocol.TextMessageHeaderSequenceAndEncoding) :
    place io parent root b x.toPy = (.obj b, placeObj io parent root b x.toPy) :=
  place_part _ _ _ _ _ _ (by decide)

theorem TextMessageProtocol_TextMessage_class : library.class "Motorola.TextMessageProtocol.TextMessage" = some Source.Motorola.TextMessageProtocol.TextMessage := class_at 27 _ TextMessageProtocol.file 0 Source.Motorola.TextMessageProtocol.TextMessage rfl

/-- okdmr/kaitai/motorola/text_message_protocol.py:57-74 against `Dmr.Motorola.TextMessageProtocol.TextMessage`: it looks up the `extension_bit` of the `message_header` of its `_root`. -/
theorem TextMessageProtocol_TextMessage_builds_at (n : Nat) (H : List Obj) (S : List Stream) (k : Nat) (hk : k < S.length) (s : Stream)
    (q m : Nat) (o oh : Obj) (x : Dmr.Motorola.TextMessageProtocol.MessageHeaderBits) (hq : H[q]? = some o) (hm : o.attrs.lookup "message_header" = some (.obj m)) (hh : H[m]? = some oh)
    (h1 : oh.attrs.lookup "extension_bit" = some (.pv (.bool x.extension_bit))) (parent : Val) :
    ((calls library (n + 5)).construct "Motorola.TextMessageProtocol.TextMessage" [.io k, parent, .obj q]).run ⟨H, S.set k s⟩ =
      after (Dmr.Motorola.TextMessageProtocol.TextMessage.read x) s (fun e s' => .raise e ⟨H, S.set k s'⟩)
        (built Dmr.Motorola.TextMessageProtocol.TextMessage.toPy k parent (.obj q) H S) := by
  rw [construct_eq library _ "Motorola.TextMessageProtocol.TextMessage" _ _ TextMessageProtocol_TextMessage_class rfl rfl]
  py_run [onStream_set _ _ _ _ hk, hk, fetch_old hq, fetch_old hh, hm, h1, Dmr.Motorola.TextMessageProtocol.TextMessage.read, Dmr.Motorola.TextMessageProtocol.TextMessage.toPy]

@[py] theorem TextMessageProtocol_TextMessage_place (io parent root : Val) (b : Nat) (x : Dmr.Motorola.TextMessageProtocol.TextMessage) :
    place io parent root b x.toPy = (.obj b, placeObj io parent root b x.toPy) :=
  place_part _ _ _ _ _ _ (by decide)

theorem TextMessageProtocol_TmsServiceAvailabilityHeader_class : library.class "Motorola.TextMessageProtocol.TmsServiceAvailabilityHeader" = some Source.Motorola.TextMessageProtocol.TmsServiceAvailabilityHeader := class_at 27 _ TextMessageProtocol.file 7 Source.Motorola.TextMessageProtocol.TmsServiceAvailabilityHeader rfl

/-- okdmr/kaitai/motorola/text_message_protocol.py:195-207 against `Dmr.Motorola.TextMessageProtocol.TmsServiceAvailabilityHeader`. -/
@[py] theorem TextMessageProtocol_TmsServiceAvailabilityHeader_builds (n : Nat) (H : List Obj) (S : List Stream) (k : Nat) (hk : k < S.length) (s : Stream)
    (parent root : Val) : ((calls library (n + 3)).construct "Motorola.TextMessageProtocol.TmsServiceAvailabilityHeader" [.io k, parent, root]).run ⟨H, S.set k s⟩ =
      after Dmr.Motorola.TextMessageProtocol.TmsServiceAvailabilityHeader.read s (fun e s' => .raise e ⟨H, S.set k s'⟩)
        (built Dmr.Motorola.TextMessageProtocol.TmsServiceAvailabilityHeader.toPy k parent root H S) := by
  rw [construct_eq library _ "Motorola.TextMessageProtocol.TmsServiceAvailabilityHeader" _ _ TextMessageProtocol_TmsServiceAvailabilityHeader_class rfl rfl]
  py_run [onStream_set _ _ _ _ hk, hk, Dmr.Motorola.TextMessageProtocol.TmsServiceAvailabilityHeader.read, Dmr.Motorola.TextMessageProtocol.TmsServiceAvailabilityHeader.toPy]

@[py] theorem TextMessageProtocol_TmsServiceAvailabilityHeader_place (io parent root : Val) (b : Nat) (x : Dmr.Motorola.TextMessageProtocol.TmsServiceAvailabilityHeader) :
    place io parent root b x.toPy = (.obj b, placeObj io parent root b x.toPy) :=
  place_part _ _ _ _ _ _ (by decide)

theorem TextMessageProtocol_TmsServiceAvailability_class : library.class "Motorola.TextMessageProtocol.TmsServiceAvailability" = some Source.Motorola.TextMessageProtocol.TmsServiceAvailability := class_at 27 _ TextMessageProtocol.file 1 Source.Motorola.TextMessageProtocol.TmsServiceAvailability rfl

/-- okdmr/kaitai/motorola/text_message_protocol.py:76-89 against `Dmr.Motorola.TextMessageProtocol.TmsServiceAvailability`: it looks up the `extension_bit` of the `message_header` of its `_root`. -/
theorem TextMessageProtocol_TmsServiceAvailability_builds_at (n : Nat) (H : List Obj) (S : List Stream) (k : Nat) (hk : k < S.length) (s : Stream)
    (q m : Nat) (o oh : Obj) (x : Dmr.Motorola.TextMessageProtocol.MessageHeaderBits) (hq : H[q]? = some o) (hm : o.attrs.lookup "message_header" = some (.obj m)) (hh : H[m]? = some oh)
    (h1 : oh.attrs.lookup "extension_bit" = some (.pv (.bool x.extension_bit))) (parent : Val) :
    ((calls library (n + 5)).construct "Motorola.TextMessageProtocol.TmsServiceAvailability" [.io k, parent, .obj q]).run ⟨H, S.set k s⟩ =
      after (Dmr.Motorola.TextMessageProtocol.TmsServiceAvailability.read x) s (fun e s' => .raise e ⟨H, S.set k s'⟩)
        (built Dmr.Motorola.TextMessageProtocol.TmsServiceAvailability.toPy k parent (.obj q) H S) := by
  rw [construct_eq library _ "Motorola.TextMessageProtocol.TmsServiceAvailability" _ _ TextMessageProtocol_TmsServiceAvailability_class rfl rfl]
  py_run [onStream_set _ _ _ _ hk, hk, fetch_old hq, fetch_old hh, hm, h1, Dmr.Motorola.TextMessageProtocol.TmsServiceAvailability.read, Dmr.Motorola.TextMessageProtocol.TmsServiceAvailability.toPy]

@[py] theorem TextMessageProtocol_TmsServiceAvailability_place (io parent root : Val) (b : Nat) (x : Dmr.Motorola.TextMessageProtocol.TmsServiceAvailability) :
    place io parent root b x.toPy = (.obj b, placeObj io parent root b x.toPy) :=
  place_part _ _ _ _ _ _ (by decide)

theorem TextMessageProtocol_MessageHeaderBits_class : library.class "Motorola.TextMessageProtocol.MessageHeaderBits" = some Source.Motorola.TextMessageProtocol.MessageHeaderBits := class_at 27 _ TextMessageProtocol.file 3 Source.Motorola.TextMessageProtocol.MessageHeaderBits rfl

/-- okdmr/kaitai/motorola/text_message_protocol.py:120-132 against `Dmr.Motorola.TextMessageProtocol.MessageHeaderBits`. -/
@[py] theorem TextMessageProtocol_MessageHeaderBits_builds (n : Nat) (H : List Obj) (S : List Stream) (k : Nat) (hk : k < S.length) (s : Stream)
    (parent root : Val) : ((calls library (n + 3)).construct "Motorola.TextMessageProtocol.MessageHeaderBits" [.io k, parent, root]).run ⟨H, S.set k s⟩ =
      after Dmr.Motorola.TextMessageProtocol.MessageHeaderBits.read s (fun e s' => .raise e ⟨H, S.set k s'⟩)
        (built Dmr.Motorola.TextMessageProtocol.MessageHeaderBits.toPy k parent root H S) := by
  rw [construct_eq library _ "Motorola.TextMessageProtocol.MessageHeaderBits" _ _ TextMessageProtocol_MessageHeaderBits_class rfl rfl]
  py_run [onStream_set _ _ _ _ hk, hk, Dmr.Motorola.TextMessageProtocol.MessageHeaderBits.read, Dmr.Motorola.TextMessageProtocol.MessageHeaderBits.toPy]

@[py] theorem TextMessageProtocol_MessageHeaderBits_place (io parent root : Val) (b : Nat) (x : Dmr.Motorola.TextMessageProtocol.MessageHeaderBits) :
    place io parent root b x.toPy = (.obj b, placeObj io parent root b x.toPy) :=
  place_part _ _ _ _ _ _ (by decide)

theorem TextMessageProtocol_TmsAcknowledgementHeaderSequenceNumber_class : library.class "Motorola.TextMessageProtocol.TmsAcknowledgementHeaderSequenceNumber" = some Source.Motorola.TextMessageProtocol.TmsAcknowledgementHeaderSequenceNumber := class_at 27 _ TextMessageProtocol.file 5 Source.Motorola.TextMessageProtocol.TmsAcknowledgementHeaderSequenceNumber rfl

@[py] theorem TextMessageProtocol_TmsAcknowledgementHeaderSequenceNumber_property (x : String) : library.property "Motorola.TextMessageProtocol.TmsAcknowledgementHeaderSequenceNumber" x = Source.Motorola.TextMessageProtocol.TmsAcknowledgementHeaderSequenceNumber.properties.lookup x :=
  property_of _ _ _ _ TextMessageProtocol_TmsAcknowledgementHeaderSequenceNumber_class

/-- okdmr/kaitai/motorola/text_message_protocol.py:151-179 against `Dmr.Motorola.TextMessageProtocol.TmsAcknowledgementHeaderSequenceNumber`. -/
@[py] theorem TextMessageProtocol_TmsAcknowledgementHeaderSequenceNumber_builds (n : Nat) (H : List Obj) (S : List Stream) (k : Nat) (hk : k < S.length) (s : Stream)
    (parent root : Val) : ((calls library (n + 3)).construct "Motorola.TextMessageProtocol.TmsAcknowledgementHeaderSequenceNumber" [.io k, parent, root]).run ⟨H, S.set k s⟩ =
      after Dmr.Motorola.TextMessageProtocol.TmsAcknowledgementHeaderSequenceNumber.read s (fun e s' => .raise e ⟨H, S.set k s'⟩)
        (built Dmr.Motorola.TextMessageProtocol.TmsAcknowledgementHeaderSequenceNumber.toPy k parent root H S) := by
  rw [construct_eq library _ "Motorola.TextMessageProtocol.TmsAcknowledgementHeaderSequenceNumber" _ _ TextMessageProtocol_TmsAcknowledgementHeaderSequenceNumber_class rfl rfl]
  py_run [onStream_set _ _ _ _ hk, hk, Dmr.Motorola.TextMessageProtocol.TmsAcknowledgementHeaderSequenceNumber.read, Dmr.Motorola.TextMessageProtocol.TmsAcknowledgementHeaderSequenceNumber.toPy, Source.Motorola.TextMessageProtocol.TmsAcknowledgementHeaderSequenceNumber]

@[py] theorem TextMessageProtocol_TmsAcknowledgementHeaderSequenceNumber_place (io parent root : Val) (b : Nat) (x : Dmr.Motorola.TextMessageProtocol.TmsAcknowledgementHeaderSequenceNumber) :
    place io parent root b x.toPy = (.obj b, placeObj io parent root b x.toPy) :=
  place_part _ _ _ _ _ _ (by decide)

theorem TextMessageProtocol_TmsAcknowledgement_class : library.class "Motorola.TextMessageProtocol.TmsAcknowledgement" = some Source.Motorola.TextMessageProtocol.TmsAcknowledgement := class_at 27 _ TextMessageProtocol.file 4 Source.Motorola.TextMessageProtocol.TmsAcknowledgement rfl

/-- okdmr/kaitai/motorola/text_message_protocol.py:134-149 against `Dmr.Motorola.TextMessageProtocol.TmsAcknowledgement`: it looks up the `extension_bit` of the `message_header` of its `_root`. -/
theorem TextMessageProtocol_TmsAcknowledgement_builds_at (n : Nat) (H : List Obj) (S : List Stream) (k : Nat) (hk : k < S.length) (s : Stream)
    (q m : Nat) (o oh : Obj) (x : Dmr.Motorola.TextMessageProtocol.MessageHeaderBits) (hq : H[q]? = some o) (hm : o.attrs.lookup "message_header" = some (.obj m)) (hh : H[m]? = some oh)
    (h1 : oh.attrs.lookup "extension_bit" = some (.pv (.bool x.extension_bit))) (parent : Val) :
    ((calls library (n + 5)).construct "Motorola.TextMessageProtocol.TmsAcknowledgement" [.io k, parent, .obj q]).run ⟨H, S.set k s⟩ =
      after (Dmr.Motorola.TextMessageProtocol.TmsAcknowledgement.read x) s (fun e s' => .raise e ⟨H, S.set k s'⟩)
        (built Dmr.Motorola.TextMessageProtocol.TmsAcknowledgement.toPy k parent (.obj q) H S) := by
  rw [construct_eq library _ "Motorola.TextMessageProtocol.TmsAcknowledgement" _ _ TextMessageProtocol_TmsAcknowledgement_class rfl rfl]
  py_run [onStream_set _ _ _ _ hk, hk, fetch_old hq, fetch_old hh, hm, h1, Dmr.Motorola.TextMessageProtocol.TmsAcknowledgement.read, Dmr.Motorola.TextMessageProtocol.TmsAcknowledgement.toPy]

@[py] theorem TextMessageProtocol_TmsAcknowledgement_place (io parent root : Val) (b : Nat) (x : Dmr.Motorola.TextMessageProtocol.TmsAcknowledgement) :
    place io parent root b x.toPy = (.obj b, placeObj io parent root b x.toPy) :=
  place_part _ _ _ _ _ _ (by decide)

theorem TextMessageProtocol_TmsServiceAvailabilityAcknowledgement_class : library.class "Motorola.TextMessageProtocol.TmsServiceAvailabilityAcknowledgement" = some Source.Motorola.TextMessageProtocol.TmsServiceAvailabilityAcknowledgement := class_at 27 _ TextMessageProtocol.file 6 Source.Motorola.TextMessageProtocol.TmsServiceAvailabilityAcknowledgement rfl

/-- okdmr/kaitai/motorola/text_message_protocol.py:181-193 against `Dmr.Motorola.TextMessageProtocol.TmsServiceAvailabilityAcknowledgement`. -/
@[py] theorem TextMessageProtocol_TmsServiceAvailabilityAcknowledgement_builds (n : Nat) (H : List Obj) (S : List Stream) (k : Nat) (hk : k < S.length) (s : Stream)
    (parent root : Val) : ((calls library (n + 3)).construct "Motorola.TextMessageProtocol.TmsServiceAvailabilityAcknowledgement" [.io k, parent, root]).run ⟨H, S.set k s⟩ =
      after Dmr.Motorola.TextMessageProtocol.TmsServiceAvailabilityAcknowledgement.read s (fun e s' => .raise e ⟨H, S.set k s'⟩)
        (built Dmr.Motorola.TextMessageProtocol.TmsServiceAvailabilityAcknowledgement.toPy k parent root H S) := by
  rw [construct_eq library _ "Motorola.TextMessageProtocol.TmsServiceAvailabilityAcknowledgement" _ _ TextMessageProtocol_TmsServiceAvailabilityAcknowledgement_class rfl rfl]
  py_run [onStream_set _ _ _ _ hk, hk, Dmr.Motorola.TextMessageProtocol.TmsServiceAvailabilityAcknowledgement.read, Dmr.Motorola.TextMessageProtocol.TmsServiceAvailabilityAcknowledgement.toPy]

@[py] theorem TextMessageProtocol_TmsServiceAvailabilityAcknowledgement_place (io parent root : Val) (b : Nat) (x : Dmr.Motorola.TextMessageProtocol.TmsServiceAvailabilityAcknowledgement) :
    place io parent root b x.toPy = (.obj b, placeObj io parent root b x.toPy) :=
  place_part _ _ _ _ _ _ (by decide)

theorem TextMessageProtocol_class : library.class "Motorola.TextMessageProtocol" = some Source.Motorola.TextMessageProtocol := class_at 27 _ TextMessageProtocol.file 8 Source.Motorola.TextMessageProtocol rfl

@[py] theorem TextMessageProtocol_property (x : String) : library.property "Motorola.TextMessageProtocol" x = Source.Motorola.TextMessageProtocol.properties.lookup x :=
  property_of _ _ _ _ TextMessageProtocol_class

@[py] theorem TextMessageProtocol_TmsServiceAvailability_builds (n : Nat) (H : List Obj) (S : List Stream) (k : Nat) (hk : k < S.length) (s : Stream) (root : Val)
    (x : Dmr.Motorola.TextMessageProtocol.MessageHeaderBits) (A : List (String × Val)) (hA : A.lookup "message_header" = some (.obj (H.length + 1))) :
    ((calls library (n + 5)).construct "Motorola.TextMessageProtocol.TmsServiceAvailability" [.io k, .obj H.length, .obj H.length]).run ⟨H ++ ⟨"Motorola.TextMessageProtocol", A⟩ :: placeObj (.io k) (.obj H.length) root (H.length + 1) x.toPy, S.set k s⟩ =
      after (Dmr.Motorola.TextMessageProtocol.TmsServiceAvailability.read x) s (fun e s' => .raise e ⟨H ++ ⟨"Motorola.TextMessageProtocol", A⟩ :: placeObj (.io k) (.obj H.length) root (H.length + 1) x.toPy, S.set k s'⟩)
        (built Dmr.Motorola.TextMessageProtocol.TmsServiceAvailability.toPy k (.obj H.length) (.obj H.length) (H ++ ⟨"Motorola.TextMessageProtocol", A⟩ :: placeObj (.io k) (.obj H.length) root (H.length + 1) x.toPy) S) := by
  obtain ⟨oh, h1, h2⟩ : ∃ oh, (H ++ ⟨"Motorola.TextMessageProtocol", A⟩ :: placeObj (.io k) (.obj H.length) root (H.length + 1) x.toPy)[H.length + 1]? = some oh ∧ oh.attrs.lookup "extension_bit" = some (.pv (.bool x.extension_bit)) :=
    ⟨_, by simp [Dmr.Motorola.TextMessageProtocol.MessageHeaderBits.toPy, placeObj_object]; rfl, rfl⟩
  exact TextMessageProtocol_TmsServiceAvailability_builds_at n _ S k hk s H.length (H.length + 1) ⟨"Motorola.TextMessageProtocol", A⟩ oh x (by simp) hA h1 h2 _

@[py] theorem TextMessageProtocol_TmsAcknowledgement_builds (n : Nat) (H : List Obj) (S : List Stream) (k : Nat) (hk : k < S.length) (s : Stream) (root : Val)
    (x : Dmr.Motorola.TextMessageProtocol.MessageHeaderBits) (A : List (String × Val)) (hA : A.lookup "message_header" = some (.obj (H.length + 1))) :
    ((calls library (n + 5)).construct "Motorola.TextMessageProtocol.TmsAcknowledgement" [.io k, .obj H.length, .obj H.length]).run ⟨H ++ ⟨"Motorola.TextMessageProtocol", A⟩ :: placeObj (.io k) (.obj H.length) root (H.length + 1) x.toPy, S.set k s⟩ =
      after (Dmr.Motorola.TextMessageProtocol.TmsAcknowledgement.read x) s (fun e s' => .raise e ⟨H ++ ⟨"Motorola.TextMessageProtocol", A⟩ :: placeObj (.io k) (.obj H.length) root (H.length + 1) x.toPy, S.set k s'⟩)
        (built Dmr.Motorola.TextMessageProtocol.TmsAcknowledgement.toPy k (.obj H.length) (.obj H.length) (H ++ ⟨"Motorola.TextMessageProtocol", A⟩ :: placeObj (.io k) (.obj H.length) root (H.length + 1) x.toPy) S) := by
  obtain ⟨oh, h1, h2⟩ : ∃ oh, (H ++ ⟨"Motorola.TextMessageProtocol", A⟩ :: placeObj (.io k) (.obj H.length) root (H.length + 1) x.toPy)[H.length + 1]? = some oh ∧ oh.attrs.lookup "extension_bit" = some (.pv (.bool x.extension_bit)) :=
    ⟨_, by simp [Dmr.Motorola.TextMessageProtocol.MessageHeaderBits.toPy, placeObj_object]; rfl, rfl⟩
  exact TextMessageProtocol_TmsAcknowledgement_builds_at n _ S k hk s H.length (H.length + 1) ⟨"Motorola.TextMessageProtocol", A⟩ oh x (by simp) hA h1 h2 _

@[py] theorem TextMessageProtocol_TextMessage_builds (n : Nat) (H : List Obj) (S : List Stream) (k : Nat) (hk : k < S.length) (s : Stream) (root : Val)
    (x : Dmr.Motorola.TextMessageProtocol.MessageHeaderBits) (A : List (String × Val)) (hA : A.lookup "message_header" = some (.obj (H.length + 1))) :
    ((calls library (n + 5)).construct "Motorola.TextMessageProtocol.TextMessage" [.io k, .obj H.length, .obj H.length]).run ⟨H ++ ⟨"Motorola.TextMessageProtocol", A⟩ :: placeObj (.io k) (.obj H.length) root (H.length + 1) x.toPy, S.set k s⟩ =
      after (Dmr.Motorola.TextMessageProtocol.TextMessage.read x) s (fun e s' => .raise e ⟨H ++ ⟨"Motorola.TextMessageProtocol", A⟩ :: placeObj (.io k) (.obj H.length) root (H.length + 1) x.toPy, S.set k s'⟩)
        (built Dmr.Motorola.TextMessageProtocol.TextMessage.toPy k (.obj H.length) (.obj H.length) (H ++ ⟨"Motorola.TextMessageProtocol", A⟩ :: placeObj (.io k) (.obj H.length) root (H.length + 1) x.toPy) S) := by
  obtain ⟨oh, h1, h2⟩ : ∃ oh, (H ++ ⟨"Motorola.TextMessageProtocol", A⟩ :: placeObj (.io k) (.obj H.length) root (H.length + 1) x.toPy)[H.length + 1]? = some oh ∧ oh.attrs.lookup "extension_bit" = some (.pv (.bool x.extension_bit)) :=
    ⟨_, by simp [Dmr.Motorola.TextMessageProtocol.MessageHeaderBits.toPy, placeObj_object]; rfl, rfl⟩
  exact TextMessageProtocol_TextMessage_builds_at n _ S k hk s H.length (H.length + 1) ⟨"Motorola.TextMessageProtocol", A⟩ oh x (by simp) hA h1 h2 _

theorem TextMessageProtocol_fetch (H : List Obj) (o : Obj) (io parent root : Val) (b : Nat)
    (x : Dmr.Motorola.TextMessageProtocol.MessageHeaderBits) (S : List Stream) :
    (fetch (H.length + 1)).run ⟨H ++ o :: placeObj io parent root b x.toPy, S⟩ =
      .ok ⟨"Motorola.TextMessageProtocol.MessageHeaderBits", [("_io", io), ("_parent", parent), ("_root", root),
        ("extension_bit", .pv (.bool x.extension_bit)), ("acknowledgement_required", .pv (.bool x.acknowledgement_required)), ("reserved", .pv (.bool x.reserved)),
        ("control_user_bit", .pv (.bool x.control_user_bit)), ("pdu_type", .pv (.int (x.pdu_type : Int)))]⟩
        ⟨H ++ o :: placeObj io parent root b x.toPy, S⟩ := by
  unfold Dmr.Motorola.TextMessageProtocol.MessageHeaderBits.toPy
  rw [fetch_part']
  py_run []

/-- okdmr/kaitai/motorola/text_message_protocol.py:15-219 against `Dmr.Motorola.TextMessageProtocol`, made as `TextMessageProtocol(io)`. -/
theorem TextMessageProtocol_builds (n : Nat) (H : List Obj) (S : List Stream) (k : Nat) (hk : k < S.length) (s : Stream) :
    ((calls library (n + 7)).construct "Motorola.TextMessageProtocol" [.io k, .pv .none, .pv .none]).run ⟨H, S.set k s⟩ =
      after Dmr.Motorola.TextMessageProtocol.read s (fun e s' => .raise e ⟨H, S.set k s'⟩)
        (built Dmr.Motorola.TextMessageProtocol.toPy k (.pv .none) (.pv .none) H S) := by
  rw [construct_eq library _ "Motorola.TextMessageProtocol" _ _ TextMessageProtocol_class rfl rfl]
  py_run [TextMessageProtocol_fetch, Source.Motorola.TextMessageProtocol, onStream_set _ _ _ _ hk, hk, Dmr.Motorola.TextMessageProtocol.read, Dmr.Motorola.TextMessageProtocol.toPy, ← Int.natCast_add, Dmr.Motorola.TextMessageProtocol.customPduType, Dmr.Motorola.TextMessageProtocol.readPduContent, Dmr.Motorola.TextMessageProtocol.PduContentUnion.toPy]

@[py] theorem TextMessageProtocol_short (n k : Nat) : (calls library (n + 7)).construct "Motorola.TextMessageProtocol" [.io k] =
    (calls library (n + 7)).construct "Motorola.TextMessageProtocol" [.io k, .pv .none, .pv .none] := construct_short _ _ _ _ TextMessageProtocol_class rfl _

@[py] theorem TextMessageProtocol_place (io parent root : Val) (b : Nat) (x : Dmr.Motorola.TextMessageProtocol) :
    place io parent root b x.toPy = (.obj b, placeObj io (.pv .none) (.obj b) b x.toPy) :=
  place_file _ _ _ _ _ _ (by decide)

end Dmr.Py.ConformMotorola
