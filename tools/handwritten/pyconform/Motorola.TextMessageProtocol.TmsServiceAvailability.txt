/-- okdmr/kaitai/motorola/text_message_protocol.py:76-89 against `Dmr.Motorola.TextMessageProtocol.TmsServiceAvailability`: it looks up the `extension_bit` of the `message_header` of its `_root`. -/
theorem TextMessageProtocol_TmsServiceAvailability_builds_at (n : Nat) (H : List Obj) (S : List Stream) (k : Nat) (hk : k < S.length) (s : Stream)
    (q m : Nat) (o oh : Obj) (x : Dmr.Motorola.TextMessageProtocol.MessageHeaderBits) (hq : H[q]? = some o) (hm : o.attrs.lookup "message_header" = some (.obj m)) (hh : H[m]? = some oh)
    (h1 : oh.attrs.lookup "extension_bit" = some (.pv (.bool x.extension_bit))) (parent : Val) :
    ((calls library (n + 5)).construct "Motorola.TextMessageProtocol.TmsServiceAvailability" [.io k, parent, .obj q]).run ⟨H, S.set k s⟩ =
      after (Dmr.Motorola.TextMessageProtocol.TmsServiceAvailability.read x) s (fun e s' => .raise e ⟨H, S.set k s'⟩)
        (built Dmr.Motorola.TextMessageProtocol.TmsServiceAvailability.toPy k parent (.obj q) H S) := by
  rw [construct_eq library _ "Motorola.TextMessageProtocol.TmsServiceAvailability" _ _ TextMessageProtocol_TmsServiceAvailability_class rfl rfl]
  py_run [onStream_set _ _ _ _ hk, hk, fetch_old hq, fetch_old hh, hm, h1, Dmr.Motorola.TextMessageProtocol.TmsServiceAvailability.read, Dmr.Motorola.TextMessageProtocol.TmsServiceAvailability.toPy]
