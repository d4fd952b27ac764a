@[py] theorem TextMessageProtocol_TmsServiceAvailability_builds (n : Nat) (H : List Obj) (S : List Stream) (k : Nat) (hk : k < S.length) (s : Stream) (root : Val)
    (x : Dmr.Motorola.TextMessageProtocol.MessageHeaderBits) (A : List (String × Val)) (hA : A.lookup "message_header" = some (.obj (H.length + 1))) :
    ((calls library (n + 5)).construct "Motorola.TextMessageProtocol.TmsServiceAvailability" [.io k, .obj H.length, .obj H.length]).run ⟨H ++ ⟨"Motorola.TextMessageProtocol", A⟩ :: placeObj (.io k) (.obj H.length) root (H.length + 1) x.toPy, S.set k s⟩ =
      after (Dmr.Motorola.TextMessageProtocol.TmsServiceAvailability.read x) s (fun e s' => .raise e ⟨H ++ ⟨"Motorola.TextMessageProtocol", A⟩ :: placeObj (.io k) (.obj H.length) root (H.length + 1) x.toPy, S.set k s'⟩)
        (built Dmr.Motorola.TextMessageProtocol.TmsServiceAvailability.toPy k (.obj H.length) (.obj H.length) (H ++ ⟨"Motorola.TextMessageProtocol", A⟩ :: placeObj (.io k) (.obj H.length) root (H.length + 1) x.toPy) S) := by
  obtain ⟨oh, h1, h2⟩ : ∃ oh, (H ++ ⟨"Motorola.TextMessageProtocol", A⟩ :: placeObj (.io k) (.obj H.length) root (H.length + 1) x.toPy)[H.length + 1]? = some oh ∧ oh.attrs.lookup "extension_bit" = some (.pv (.bool x.extension_bit)) :=
    ⟨_, by simp [Dmr.Motorola.TextMessageProtocol.MessageHeaderBits.toPy, placeObj_object]; rfl, rfl⟩
  exact TextMessageProtocol_TmsServiceAvailability_builds_at n _ S k hk s H.length (H.length + 1) ⟨"Motorola.TextMessageProtocol", A⟩ oh x (by simp) hA h1 h2 _

@[py] theorem TextMessageProtocol_TmsAcknowledgement_builds (n : Nat) (H : List Obj) (S : List Stream) (k : Nat) (hk : k < S.length) (s : Stream) (root : Val)
    (x : Dmr.Motorola.TextMessageProtocol.MessageHeaderBits) (A : List (String × Val)) (hA : A.lookup "message_header" = some (.obj (H.length + 1))) :
    ((calls library (n + 5)).construct "Motorola.TextMessageProtocol.TmsAcknowledgement" [.io k, .obj H.length, .obj H.length]).run ⟨H ++ ⟨"Motorola.TextMessageProtocol", A⟩ :: placeObj (.io k) (.obj H.length) root (H.length + 1) x.toPy, S.set k s⟩ =
      after (Dmr.Motorola.TextMessageProtocol.TmsAcknowledgement.read x) s (fun e s' => .raise e ⟨H ++ ⟨"Motorola.TextMessageProtocol", A⟩ :: placeObj (.io k) (.obj H.length) root (H.length + 1) x.toPy, S.set k s'⟩)
        (built Dmr.Motorola.TextMessageProtocol.TmsAcknowledgement.toPy k (.obj H.length) (.obj H.length) (H ++ ⟨"Motorola.TextMessageProtocol", A⟩ :: placeObj (.io k) (.obj H.length) root (H.length + 1) x.toPy) S) := by
  obtain ⟨oh, h1, h2⟩ : ∃ oh, (H ++ ⟨"Motorola.TextMessageProtocol", A⟩ :: placeObj (.io k) (.obj H.length) root (H.length + 1) x.toPy)[H.length + 1]? = some oh ∧ oh.attrs.lookup "extension_bit" = some (.pv (.bool x.extension_bit)) :=
    ⟨_, by simp [Dmr.Motorola.TextMessageProtocol.MessageHeaderBits.toPy, placeObj_object]; rfl, rfl⟩
  exact TextMessageProtocol_TmsAcknowledgement_builds_at n _ S k hk s H.length (H.length + 1) ⟨"Motorola.TextMessageProtocol", A⟩ oh x (by simp) hA h1 h2 _

@[py] theorem TextMessageProtocol_TextMessage_builds (n : Nat) (H : List Obj) (S : List Stream) (k : Nat) (hk : k < S.length) (s : Stream) (root : Val)
    (x : Dmr.Motorola.TextMessageProtocol.MessageHeaderBits) (A : List (String × Val)) (hA : A.lookup "message_header" = some (.obj (H.length + 1))) :
    ((calls library (n + 5)).construct "Motorola.TextMessageProtocol.TextMessage" [.io k, .obj H.length, .obj H.length]).run ⟨H ++ ⟨"Motorola.TextMessageProtocol", A⟩ :: placeObj (.io k) (.obj H.length) root (H.length + 1) x.toPy, S.set k s⟩ =
      after (Dmr.Motorola.TextMessageProtocol.TextMessage.read x) s (fun e s' => .raise e ⟨H ++ ⟨"Motorola.TextMessageProtocol", A⟩ :: placeObj (.io k) (.obj H.length) root (H.length + 1) x.toPy, S.set k s'⟩)
        (built Dmr.Motorola.TextMessageProtocol.TextMessage.toPy k (.obj H.length) (.obj H.length) (H ++ ⟨"Motorola.TextMessageProtocol", A⟩ :: placeObj (.io k) (.obj H.length) root (H.length + 1) x.toPy) S) := by
  obtain ⟨oh, h1, h2⟩ : ∃ oh, (H ++ ⟨"Motorola.TextMessageProtocol", A⟩ :: placeObj (.io k) (.obj H.length) root (H.length + 1) x.toPy)[H.length + 1]? = some oh ∧ oh.attrs.lookup "extension_bit" = some (.pv (.bool x.extension_bit)) :=
    ⟨_, by simp [Dmr.Motorola.TextMessageProtocol.MessageHeaderBits.toPy, placeObj_object]; rfl, rfl⟩
  exact TextMessageProtocol_TextMessage_builds_at n _ S k hk s H.length (H.length + 1) ⟨"Motorola.TextMessageProtocol", A⟩ oh x (by simp) hA h1 h2 _

theorem TextMessageProtocol_fetch (H : List Obj) (o : Obj) (io parent root : Val) (b : Nat)
    (x : Dmr.Motorola.TextMessageProtocol.MessageHeaderBits) (S : List Stream) :
    (fetch (H.length + 1)).run ⟨H ++ o :: placeObj io parent root b x.toPy, S⟩ =
      .ok ⟨"Motorola.TextMessageProtocol.MessageHeaderBits", [("_io", io), ("_parent", parent), ("_root", root),
        ("extension_bit", .pv (.bool x.extension_bit)), ("acknowledgement_required", .pv (.bool x.acknowledgement_required)), ("reserved", .pv (.bool x.reserved)),
        ("control_user_bit", .pv (.bool x.control_user_bit)), ("pdu_type", .pv (.int (x.pdu_type : Int)))]⟩
        ⟨H ++ o :: placeObj io parent root b x.toPy, S⟩ := by
  unfold Dmr.Motorola.TextMessageProtocol.MessageHeaderBits.toPy
  rw [fetch_part']
  py_run []

/-- okdmr/kaitai/motorola/text_message_protocol.py:15-219 against `Dmr.Motorola.TextMessageProtocol`, made as `TextMessageProtocol(io)`. -/
theorem TextMessageProtocol_builds (n : Nat) (H : List Obj) (S : List Stream) (k : Nat) (hk : k < S.length) (s : Stream) :
    ((calls library (n + 7)).construct "Motorola.TextMessageProtocol" [.io k, .pv .none, .pv .none]).run ⟨H, S.set k s⟩ =
      after Dmr.Motorola.TextMessageProtocol.read s (fun e s' => .raise e ⟨H, S.set k s'⟩)
        (built Dmr.Motorola.TextMessageProtocol.toPy k (.pv .none) (.pv .none) H S) := by
  rw [construct_eq library _ "Motorola.TextMessageProtocol" _ _ TextMessageProtocol_class rfl rfl]
  py_run [TextMessageProtocol_fetch, Source.Motorola.TextMessageProtocol, onStream_set _ _ _ _ hk, hk, Dmr.Motorola.TextMessageProtocol.read, Dmr.Motorola.TextMessageProtocol.toPy, ← Int.natCast_add, Dmr.Motorola.TextMessageProtocol.customPduType, Dmr.Motorola.TextMessageProtocol.readPduContent, Dmr.Motorola.TextMessageProtocol.PduContentUnion.toPy]
