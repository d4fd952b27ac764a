/-- okdmr/kaitai/hytera/real_time_transport_protocol.py:50-74 against `Dmr.Hytera.RealTimeTransportProtocol.FixedHeader`. -/
@[py] theorem RealTimeTransportProtocol_FixedHeader_builds (n : Nat) (H : List Obj) (S : List Stream) (k : Nat) (hk : k < S.length) (s : Stream)
    (parent root : Val) : ((calls library (n + 3)).construct "Hytera.RealTimeTransportProtocol.FixedHeader" [.io k, parent, root]).run ⟨H, S.set k s⟩ =
      after Dmr.Hytera.RealTimeTransportProtocol.FixedHeader.read s (fun e s' => .raise e ⟨H, S.set k s'⟩)
        (built Dmr.Hytera.RealTimeTransportProtocol.FixedHeader.toPy k parent root H S) := by
  rw [construct_eq library _ "Hytera.RealTimeTransportProtocol.FixedHeader" _ _ RealTimeTransportProtocol_FixedHeader_class rfl rfl]
  py_run [onStream_set _ _ _ _ hk, hk, Dmr.Hytera.RealTimeTransportProtocol.FixedHeader.read, Dmr.Hytera.RealTimeTransportProtocol.FixedHeader.toPy]
  py_same
  rename_i version _ padding _ extension _ num _ marker _ ptype _ _ _ sn _ ts _ ssrc s1
  exact for_reads (by decide) (r := readU4be)
    (st := fun l s => ⟨H ++ ⟨"Hytera.RealTimeTransportProtocol.FixedHeader",
      [("_io", .io k), ("_parent", parent), ("_root", rootOf root H.length), ("version", .pv (.int (version : Int))),
       ("padding", .pv (.bool (!decide (padding = 0)))), ("extension", .pv (.bool (!decide (extension = 0)))),
       ("num_csrc", .pv (.int (num : Int))), ("marker", .pv (.bool (!decide (marker = 0)))),
       ("payload_type", .pv (.int (ptype : Int))), ("sequence_number", .pv (.int (sn : Int))), ("timestamp", .pv (.int (ts : Int))),
       ("ssrc", .pv (.int (ssrc : Int))), 
       ("csrc", .list (itemValues (.io k) (.obj H.length) (rootOf root H.length) (H.length + 1) (l.map fun (y : Nat) => .int (y : Int))))]⟩ ::
        itemParts (.io k) (.obj H.length) (rootOf root H.length) (H.length + 1) (l.map fun (y : Nat) => .int (y : Int)), S.set k s⟩)
    (E := fun e s' => .raise e ⟨H, S.set k s'⟩) (fun e l s => by py_run [])
    (fun env l s (h : var env "self" = pure (.obj H.length)) => by py_run [h, onStream_set _ _ _ _ hk]) (fun env l s h => by py_run [])
    num [("self", .obj H.length)] s1 (by py_run [])
