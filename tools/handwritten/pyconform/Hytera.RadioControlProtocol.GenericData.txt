/-- okdmr/kaitai/hytera/radio_control_protocol.py:198-206 against `Dmr.Hytera.RadioControlProtocol.GenericData`: it looks up the `message_length` of its `_parent`. -/
theorem RadioControlProtocol_GenericData_builds_at (n : Nat) (H : List Obj) (S : List Stream) (k : Nat) (hk : k < S.length) (s : Stream)
    (p : Nat) (o : Obj) (L : Nat) (hp : H[p]? = some o) (hL : o.attrs.lookup "message_length" = some (.pv (.int (L : Int)))) (root : Val) :
    ((calls library (n + 3)).construct "Hytera.RadioControlProtocol.GenericData" [.io k, .obj p, root]).run ⟨H, S.set k s⟩ =
      after (Dmr.Hytera.RadioControlProtocol.GenericData.read L) s (fun e s' => .raise e ⟨H, S.set k s'⟩)
        (built Dmr.Hytera.RadioControlProtocol.GenericData.toPy k (.obj p) root H S) := by
  rw [construct_eq library _ "Hytera.RadioControlProtocol.GenericData" _ _ RadioControlProtocol_GenericData_class rfl rfl]
  py_run [onStream_set _ _ _ _ hk, hk, fetch_old hp, hL, Dmr.Hytera.RadioControlProtocol.GenericData.read, Dmr.Hytera.RadioControlProtocol.GenericData.toPy]

@[py] theorem RadioControlProtocol_GenericData_builds (n : Nat) (H T : List Obj) (S : List Stream) (k : Nat) (hk : k < S.length) (s : Stream)
    (a0 a1 a2 a3 : Val) (L : Nat) (root : Val) :
    ((calls library (n + 3)).construct "Hytera.RadioControlProtocol.GenericData" [.io k, .obj H.length, root]).run
        ⟨H ++ ⟨"Hytera.RadioControlProtocol", [("_io", a0), ("_parent", a1), ("_root", a2), ("service_type", a3), ("message_length", .pv (.int (L : Int)))]⟩ :: T, S.set k s⟩ =
      after (Dmr.Hytera.RadioControlProtocol.GenericData.read L) s
        (fun e s' => .raise e ⟨H ++ ⟨"Hytera.RadioControlProtocol", [("_io", a0), ("_parent", a1), ("_root", a2), ("service_type", a3), ("message_length", .pv (.int (L : Int)))]⟩ :: T, S.set k s'⟩)
        (built Dmr.Hytera.RadioControlProtocol.GenericData.toPy k (.obj H.length) root (H ++ ⟨"Hytera.RadioControlProtocol", [("_io", a0), ("_parent", a1), ("_root", a2), ("service_type", a3), ("message_length", .pv (.int (L : Int)))]⟩ :: T) S) := by
  refine RadioControlProtocol_GenericData_builds_at n _ S k hk s _ ⟨"Hytera.RadioControlProtocol", [("_io", a0), ("_parent", a1), ("_root", a2), ("service_type", a3), ("message_length", .pv (.int (L : Int)))]⟩ L (by simp) ?_ root
  py_run []
