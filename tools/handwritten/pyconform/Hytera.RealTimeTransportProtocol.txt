import Verif.LocalFrames
theorem RealTimeTransportProtocol_fetch (H T : List Obj) (o : Obj) (io parent root : Val) (b : Nat)
    (x : Dmr.Hytera.RealTimeTransportProtocol.FixedHeader) (S : List Stream) :
    (fetch (H.length + 1)).run ⟨H ++ o :: (placeObj io parent root b x.toPy ++ T), S⟩ =
      .ok ⟨"Hytera.RealTimeTransportProtocol.FixedHeader", [("_io", io), ("_parent", parent), ("_root", root),
        ("version", .pv (.int (x.version : Int))), ("padding", .pv (.bool x.padding)), ("extension", .pv (.bool x.extension)),
        ("num_csrc", .pv (.int (x.num_csrc : Int))), ("marker", .pv (.bool x.marker)), ("payload_type", .pv (.int (x.payload_type : Int))),
        ("sequence_number", .pv (.int (x.sequence_number : Int))), ("timestamp", .pv (.int (x.timestamp : Int))), ("ssrc", .pv (.int (x.ssrc : Int))),
        ("csrc", .list (itemValues io (.obj b) root (b + 1) (x.csrc.map fun (y : Nat) => .int (y : Int))))]⟩
        ⟨H ++ o :: (placeObj io parent root b x.toPy ++ T), S⟩ := by
  unfold Dmr.Hytera.RealTimeTransportProtocol.FixedHeader.toPy
  rw [fetch_part]
  py_run []

theorem RealTimeTransportProtocol_fetch' (H : List Obj) (o : Obj) (io parent root : Val) (b : Nat)
    (x : Dmr.Hytera.RealTimeTransportProtocol.FixedHeader) (S : List Stream) :
    (fetch (H.length + 1)).run ⟨H ++ o :: placeObj io parent root b x.toPy, S⟩ =
      .ok ⟨"Hytera.RealTimeTransportProtocol.FixedHeader", [("_io", io), ("_parent", parent), ("_root", root),
        ("version", .pv (.int (x.version : Int))), ("padding", .pv (.bool x.padding)), ("extension", .pv (.bool x.extension)),
        ("num_csrc", .pv (.int (x.num_csrc : Int))), ("marker", .pv (.bool x.marker)), ("payload_type", .pv (.int (x.payload_type : Int))),
        ("sequence_number", .pv (.int (x.sequence_number : Int))), ("timestamp", .pv (.int (x.timestamp : Int))), ("ssrc", .pv (.int (x.ssrc : Int))),
        ("csrc", .list (itemValues io (.obj b) root (b + 1) (x.csrc.map fun (y : Nat) => .int (y : Int))))]⟩
        ⟨H ++ o :: placeObj io parent root b x.toPy, S⟩ := by
  unfold Dmr.Hytera.RealTimeTransportProtocol.FixedHeader.toPy
  rw [fetch_part']
  py_run []

theorem kept {α : Type} {r : Rd α} (hr : Local AnyBuf r) {s s1 : Stream} {x : α} (h : r s = (.ok x, s1)) : s1.buf = s.buf := by
  obtain ⟨_, h1, _⟩ := hr _ _ _ h
  exact h1

theorem readU4be_length {s s1 : Stream} {v : Nat} (h : readU4be s = (.ok v, s1)) : s1.buf.length ≠ 0 := by
  unfold readU4be at h
  obtain ⟨_, _, h1, h⟩ := Dmr.Hytera.of_bind_ok h
  cases h
  unfold readBytes at h1
  obtain ⟨_, s2, _, h⟩ := Dmr.Hytera.of_bind_ok h1
  unfold readBytesNotAligned at h
  dsimp only at h
  split at h
  · rename_i hl
    cases h
    intro h0
    simp only [List.length_take, List.length_drop] at hl
    dsimp only at h0
    omega
  · cases h

/-- After a header has been read, the stream is not empty. -/
theorem RealTimeTransportProtocol_length {s s1 : Stream} {x : Dmr.Hytera.RealTimeTransportProtocol.FixedHeader}
    (h : Dmr.Hytera.RealTimeTransportProtocol.FixedHeader.read s = (.ok x, s1)) : s1.buf.length ≠ 0 := by
  unfold Dmr.Hytera.RealTimeTransportProtocol.FixedHeader.read at h
  iterate 10 obtain ⟨_, _, _, h⟩ := Dmr.Hytera.of_bind_ok h
  obtain ⟨_, _, h1, h⟩ := Dmr.Hytera.of_bind_ok h
  obtain ⟨_, _, h2, h⟩ := Dmr.Hytera.of_bind_ok h
  cases h
  rw [kept (Local.repeatN _ Local.readU4be) h2]
  exact readU4be_length h1

/-- okdmr/kaitai/hytera/real_time_transport_protocol.py:15-117 against `Dmr.Hytera.RealTimeTransportProtocol`. -/
@[py] theorem RealTimeTransportProtocol_builds (n : Nat) (H : List Obj) (S : List Stream) (k : Nat) (hk : k < S.length) (s : Stream)
    (parent root : Val) : ((calls library (n + 7)).construct "Hytera.RealTimeTransportProtocol" [.io k, parent, root]).run ⟨H, S.set k s⟩ =
      after Dmr.Hytera.RealTimeTransportProtocol.read s (fun e s' => .raise e ⟨H, S.set k s'⟩)
        (built Dmr.Hytera.RealTimeTransportProtocol.toPy k parent root H S) := by
  rw [construct_eq library _ "Hytera.RealTimeTransportProtocol" _ _ RealTimeTransportProtocol_class rfl rfl]
  py_run [onStream_set _ _ _ _ hk, hk, RealTimeTransportProtocol_fetch, RealTimeTransportProtocol_fetch', Dmr.Hytera.RealTimeTransportProtocol.read, Dmr.Hytera.RealTimeTransportProtocol.toPy,
    Dmr.Hytera.RealTimeTransportProtocol.lenPadding, Dmr.Hytera.RealTimeTransportProtocol.lenPaddingIfExists, Source.Hytera.RealTimeTransportProtocol]
  refine after_congr_ok fun fh s1 h1 => ?_
  have n1 := RealTimeTransportProtocol_length h1
  refine if_congr Iff.rfl (after_congr_ok fun ext s2 h2 => ?_) ?_
  · have n2 : s2.buf.length ≠ 0 := by
      rw [kept (Dmr.Hytera.RealTimeTransportProtocol.HeaderExtension.read_local (G := AnyBuf)) h2]; exact n1
    by_cases hp : fh.padding = true
    · py_run [hp, after_size, after_pos, n2]
    · py_run [hp, after_size, after_pos, Nat.cast_zero]
  · by_cases hp : fh.padding = true
    · py_run [hp, after_size, after_pos, n1]
    · py_run [hp, after_size, after_pos, Nat.cast_zero]
