/-- okdmr/kaitai/hytera/data_transmit_protocol.py:79-92 against `Dmr.Hytera.DataTransmitProtocol.DtpRequest`: it looks up the `message_length` of its `_parent`. -/
theorem DataTransmitProtocol_DtpRequest_builds_at (n : Nat) (H : List Obj) (S : List Stream) (k : Nat) (hk : k < S.length) (s : Stream)
    (p : Nat) (o : Obj) (L : Nat) (hp : H[p]? = some o) (hL : o.attrs.lookup "message_length" = some (.pv (.int (L : Int)))) (root : Val) :
    ((calls library (n + 5)).construct "Hytera.DataTransmitProtocol.DtpRequest" [.io k, .obj p, root]).run ⟨H, S.set k s⟩ =
      after (Dmr.Hytera.DataTransmitProtocol.DtpRequest.read L) s (fun e s' => .raise e ⟨H, S.set k s'⟩)
        (built Dmr.Hytera.DataTransmitProtocol.DtpRequest.toPy k (.obj p) root H S) := by
  rw [construct_eq library _ "Hytera.DataTransmitProtocol.DtpRequest" _ _ DataTransmitProtocol_DtpRequest_class rfl rfl]
  py_run [onStream_set _ _ _ _ hk, hk, fetch_old hp, hL, Dmr.Hytera.DataTransmitProtocol.DtpRequest.read, Dmr.Hytera.DataTransmitProtocol.DtpRequest.toPy]

@[py] theorem DataTransmitProtocol_DtpRequest_builds (n : Nat) (H T : List Obj) (S : List Stream) (k : Nat) (hk : k < S.length) (s : Stream)
    (a0 a1 a2 a3 a4 : Val) (L : Nat) (root : Val) :
    ((calls library (n + 5)).construct "Hytera.DataTransmitProtocol.DtpRequest" [.io k, .obj H.length, root]).run
        ⟨H ++ ⟨"Hytera.DataTransmitProtocol", [("_io", a0), ("_parent", a1), ("_root", a2), ("service_type", a3), ("service_specific_type", a4), ("message_length", .pv (.int (L : Int)))]⟩ :: T, S.set k s⟩ =
      after (Dmr.Hytera.DataTransmitProtocol.DtpRequest.read L) s
        (fun e s' => .raise e ⟨H ++ ⟨"Hytera.DataTransmitProtocol", [("_io", a0), ("_parent", a1), ("_root", a2), ("service_type", a3), ("service_specific_type", a4), ("message_length", .pv (.int (L : Int)))]⟩ :: T, S.set k s'⟩)
        (built Dmr.Hytera.DataTransmitProtocol.DtpRequest.toPy k (.obj H.length) root (H ++ ⟨"Hytera.DataTransmitProtocol", [("_io", a0), ("_parent", a1), ("_root", a2), ("service_type", a3), ("service_specific_type", a4), ("message_length", .pv (.int (L : Int)))]⟩ :: T) S) := by
  refine DataTransmitProtocol_DtpRequest_builds_at n _ S k hk s _ ⟨"Hytera.DataTransmitProtocol", [("_io", a0), ("_parent", a1), ("_root", a2), ("service_type", a3), ("service_specific_type", a4), ("message_length", .pv (.int (L : Int)))]⟩ L (by simp) ?_ root
  py_run []
