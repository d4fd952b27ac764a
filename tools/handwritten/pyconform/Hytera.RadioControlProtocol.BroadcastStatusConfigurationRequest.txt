/-- okdmr/kaitai/hytera/radio_control_protocol.py:162-179 against `Dmr.Hytera.RadioControlProtocol.BroadcastStatusConfigurationRequest`. -/
@[py] theorem RadioControlProtocol_BroadcastStatusConfigurationRequest_builds (n : Nat) (H : List Obj) (S : List Stream) (k : Nat) (hk : k < S.length) (s : Stream)
    (parent root : Val) : ((calls library (n + 5)).construct "Hytera.RadioControlProtocol.BroadcastStatusConfigurationRequest" [.io k, parent, root]).run ⟨H, S.set k s⟩ =
      after Dmr.Hytera.RadioControlProtocol.BroadcastStatusConfigurationRequest.read s (fun e s' => .raise e ⟨H, S.set k s'⟩)
        (built Dmr.Hytera.RadioControlProtocol.BroadcastStatusConfigurationRequest.toPy k parent root H S) := by
  rw [construct_eq library _ "Hytera.RadioControlProtocol.BroadcastStatusConfigurationRequest" _ _ RadioControlProtocol_BroadcastStatusConfigurationRequest_class rfl rfl]
  py_run [onStream_set _ _ _ _ hk, hk, Dmr.Hytera.RadioControlProtocol.BroadcastStatusConfigurationRequest.read, Dmr.Hytera.RadioControlProtocol.BroadcastStatusConfigurationRequest.toPy]
  refine after_congr (fun _ _ => rfl) fun num s1 => ?_
  exact for_reads (by decide) (r := Dmr.Hytera.RadioControlProtocol.BroadcastConfiguration.read)
    (st := fun l s => ⟨H ++ ⟨"Hytera.RadioControlProtocol.BroadcastStatusConfigurationRequest",
      [("_io", .io k), ("_parent", parent), ("_root", rootOf root H.length), ("num_broadcast_configuration", .pv (.int (num : Int))),
       ("broadcast_configuration", .list (itemValues (.io k) (.obj H.length) (rootOf root H.length) (H.length + 1) (l.map Dmr.Hytera.RadioControlProtocol.BroadcastConfiguration.toPy)))]⟩ ::
        itemParts (.io k) (.obj H.length) (rootOf root H.length) (H.length + 1) (l.map Dmr.Hytera.RadioControlProtocol.BroadcastConfiguration.toPy), S.set k s⟩)
    (E := fun e s' => .raise e ⟨H, S.set k s'⟩) (fun e l s => by py_run [])
    (fun env l s (h : var env "self" = pure (.obj H.length)) => by py_run [h, hk]) (fun env l s h => by py_run [])
    num [("self", .obj H.length)] s1 (by py_run [])
