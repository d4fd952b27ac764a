import Verif.Py.Base
import Verif.Py.Conform.RadioId
import Verif.LocalFrames
/-
Generated by tools/mkpyconform.py: the source file of `Hytera.RealTimeTransportProtocol` against the model of its classes.
-/

set_option autoImplicit false
set_option linter.unusedSimpArgs false
set_option maxHeartbeats 1000000

namespace Dmr.Py.ConformHytera

theorem RealTimeTransportProtocol.file : files[15]? = some Source.Hytera.RealTimeTransportProtocol.file := rfl

theorem enum_RealTimeTransportProtocol_CallTypes : library.enums.find? (fun e => e.qualified == "Hytera.RealTimeTransportProtocol.CallTypes") = some Source.Hytera.RealTimeTransportProtocol.CallTypes := enum_at 15 _ RealTimeTransportProtocol.file 1 Source.Hytera.RealTimeTransportProtocol.CallTypes rfl

@[py] theorem resolve_RealTimeTransportProtocol_CallTypes (v : Nat) : resolve library "Hytera.RealTimeTransportProtocol.CallTypes" (.pv (.int (v : Int))) =
    pure (.pv (EnumVal.toPy "CallTypes" (resolveEnum Dmr.Hytera.RealTimeTransportProtocol.CallTypes v))) := run_resolve Source.Hytera.RealTimeTransportProtocol.CallTypes enum_RealTimeTransportProtocol_CallTypes (by decide) v

theorem RealTimeTransportProtocol_FixedHeader_class : library.class "Hytera.RealTimeTransportProtocol.FixedHeader" = some Source.Hytera.RealTimeTransportProtocol.FixedHeader := class_at 15 _ RealTimeTransportProtocol.file 0 Source.Hytera.RealTimeTransportProtocol.FixedHeader rfl

/-- okdmr/kaitai/hytera/real_time_transport_protocol.py:50-74 against `Dmr.Hytera.RealTimeTransportProtocol.FixedHeader`. -/
@[py] theorem RealTimeTransportProtocol_FixedHeader_builds (n : Nat) (H : List Obj) (S : List Stream) (k : Nat) (hk : k < S.length) (s : Stream)
    (parent root : Val) : ((calls library (n + 3)).construct "Hytera.RealTimeTransportProtocol.FixedHeader" [.io k, parent, root]).run ⟨H, S.set k s⟩ =
      after Dmr.Hytera.RealTimeTransportProtocol.FixedHeader.read s (fun e s' => .raise e ⟨H, S.set k s'⟩)
        (built Dmr.Hytera.RealTimeTransportProtocol.FixedHeader.toPy k parent root H S) := by
  rw [construct_eq library _ "Hytera.RealTimeTransportProtocol.FixedHeader" _ _ RealTimeTransportProtocol_FixedHeader_class rfl rfl]
  py_run [onStream_set _ _ _ _ hk, hk, Dmr.Hytera.RealTimeTransportProtocol.FixedHeader.read, Dmr.Hytera.RealTimeTransportProtocol.FixedHeader.toPy]
  py_same
  rename_i version _ padding _ extension _ num _ marker _ ptype _ _ _ sn _ ts _ ssrc s1
  exact for_reads (by decide) (r := readU4be)
    (st := fun l s => ⟨H ++ ⟨"Hytera.RealTimeTransportProtocol.FixedHeader",
      [("_io", .io k), ("_parent", parent), ("_root", rootOf root H.length), ("version", .pv (.int (version : Int))),
       ("padding", .pv (.bool (!decide (padding = 0)))), ("extension", .pv (.bool (!decide (extension = 0)))),
       ("num_csrc", .pv (.int (num : Int))), ("marker", .pv (.bool (!decide (marker = 0)))),
       ("payload_type", .pv (.int (ptype : Int))), ("sequence_number", .pv (.int (sn : Int))), ("timestamp", .pv (.int (ts : Int))),
       ("ssrc", .pv (.int (ssrc : Int))), 
       ("csrc", .list (itemValues (.io k) (.obj H.length) (rootOf root H.length) (H.length + 1) (l.map fun (y : Nat) => .int (y : Int))))]⟩ ::
        itemParts (.io k) (.obj H.length) (rootOf root H.length) (H.length + 1) (l.map fun (y : Nat) => .int (y : Int)), S.set k s⟩)
    (E := fun e s' => .raise e ⟨H, S.set k s'⟩) (fun e l s => by py_run [])
    (fun env l s (h : var env "self" = pure (.obj H.length)) => by py_run [h, onStream_set _ _ _ _ hk]) (fun env l s h => by py_run [])
    num [("self", .obj H.length)] s1 (by py_run [])

@[py] theorem RealTimeTransportProtocol_FixedHeader_place (io parent root : Val) (b : Nat) (x : Dmr.Hytera.RealTimeTransportProtocol.FixedHeader) :
    place io parent root b x.toPy = (.obj b, placeObj io parent root b x.toPy) :=
  place_part _ _ _ _ _ _ (by decide)

theorem RealTimeTransportProtocol_HeaderExtension_class : library.class "Hytera.RealTimeTransportProtocol.HeaderExtension" = some Source.Hytera.RealTimeTransportProtocol.HeaderExtension := class_at 15 _ RealTimeTransportProtocol.file 1 Source.Hytera.RealTimeTransportProtocol.HeaderExtension rfl

/-- okdmr/kaitai/hytera/real_time_transport_protocol.py:76-94 against `Dmr.Hytera.RealTimeTransportProtocol.HeaderExtension`. -/
@[py] theorem RealTimeTransportProtocol_HeaderExtension_builds (n : Nat) (H : List Obj) (S : List Stream) (k : Nat) (hk : k < S.length) (s : Stream)
    (parent root : Val) : ((calls library (n + 5)).construct "Hytera.RealTimeTransportProtocol.HeaderExtension" [.io k, parent, root]).run ⟨H, S.set k s⟩ =
      after Dmr.Hytera.RealTimeTransportProtocol.HeaderExtension.read s (fun e s' => .raise e ⟨H, S.set k s'⟩)
        (built Dmr.Hytera.RealTimeTransportProtocol.HeaderExtension.toPy k parent root H S) := by
  rw [construct_eq library _ "Hytera.RealTimeTransportProtocol.HeaderExtension" _ _ RealTimeTransportProtocol_HeaderExtension_class rfl rfl]
  py_run [onStream_set _ _ _ _ hk, hk, Dmr.Hytera.RealTimeTransportProtocol.HeaderExtension.read, Dmr.Hytera.RealTimeTransportProtocol.HeaderExtension.toPy]

@[py] theorem RealTimeTransportProtocol_HeaderExtension_place (io parent root : Val) (b : Nat) (x : Dmr.Hytera.RealTimeTransportProtocol.HeaderExtension) :
    place io parent root b x.toPy = (.obj b, placeObj io parent root b x.toPy) :=
  place_part _ _ _ _ _ _ (by decide)

theorem RealTimeTransportProtocol_class : library.class "Hytera.RealTimeTransportProtocol" = some Source.Hytera.RealTimeTransportProtocol := class_at 15 _ RealTimeTransportProtocol.file 2 Source.Hytera.RealTimeTransportProtocol rfl

@[py] theorem RealTimeTransportProtocol_property (x : String) : library.property "Hytera.RealTimeTransportProtocol" x = Source.Hytera.RealTimeTransportProtocol.properties.lookup x :=
  property_of _ _ _ _ RealTimeTransportProtocol_class

theorem RealTimeTransportProtocol_fetch (H T : List Obj) (o : Obj) (io parent root : Val) (b : Nat)
    (x : Dmr.Hytera.RealTimeTransportProtocol.FixedHeader) (S : List Stream) :
    (fetch (H.length + 1)).run ⟨H ++ o :: (placeObj io parent root b x.toPy ++ T), S⟩ =
      .ok ⟨"Hytera.RealTimeTransportProtocol.FixedHeader", [("_io", io), ("_parent", parent), ("_root", root),
        ("version", .pv (.int (x.version : Int))), ("padding", .pv (.bool x.padding)), ("extension", .pv (.bool x.extension)),
        ("num_csrc", .pv (.int (x.num_csrc : Int))), ("marker", .pv (.bool x.marker)), ("payload_type", .pv (.int (x.payload_type : Int))),
        ("sequence_number", .pv (.int (x.sequence_number : Int))), ("timestamp", .pv (.int (x.timestamp : Int))), ("ssrc", .pv (.int (x.ssrc : Int))),
        ("csrc", .list (itemValues io (.obj b) root (b + 1) (x.csrc.map fun (y : Nat) => .int (y : Int))))]⟩
        ⟨H ++ o :: (placeObj io parent root b x.toPy ++ T), S⟩ := by
  unfold Dmr.Hytera.RealTimeTransportProtocol.FixedHeader.toPy
  rw [fetch_part]
  py_run []

theorem RealTimeTransportProtocol_fetch' (H : List Obj) (o : Obj) (io parent root : Val) (b : Nat)
    (x : Dmr.Hytera.RealTimeTransportProtocol.FixedHeader) (S : List Stream) :
    (fetch (H.length + 1)).run ⟨H ++ o :: placeObj io parent root b x.toPy, S⟩ =
      .ok ⟨"Hytera.RealTimeTransportProtocol.FixedHeader", [("_io", io), ("_parent", parent), ("_root", root),
        ("version", .pv (.int (x.version : Int))), ("padding", .pv (.bool x.padding)), ("extension", .pv (.bool x.extension)),
        ("num_csrc", .pv (.int (x.num_csrc : Int))), ("marker", .pv (.bool x.marker)), ("payload_type", .pv (.int (x.payload_type : Int))),
        ("sequence_number", .pv (.int (x.sequence_number : Int))), ("timestamp", .pv (.int (x.timestamp : Int))), ("ssrc", .pv (.int (x.ssrc : Int))),
        ("csrc", .list (itemValues io (.obj b) root (b + 1) (x.csrc.map fun (y : Nat) => .int (y : Int))))]⟩
        ⟨H ++ o :: placeObj io parent root b x.toPy, S⟩ := by
  unfold Dmr.Hytera.RealTimeTransportProtocol.FixedHeader.toPy
  rw [fetch_part']
  py_run []

theorem kept {α : Type} {r : Rd α} (hr : Local AnyBuf r) {s s1 : Stream} {x : α} (h : r s = (.ok x, s1)) : s1.buf = s.buf := by
  obtain ⟨_, h1, _⟩ := hr _ _ _ h
  exact h1

theorem readU4be_length {s s1 : Stream} {v : Nat} (h : readU4be s = (.ok v, s1)) : s1.buf.length ≠ 0 := by
  unfold readU4be at h
  obtain ⟨_, _, h1, h⟩ := Dmr.Hytera.of_bind_ok h
  cases h
  unfold readBytes at h1
  obtain ⟨_, s2, _, h⟩ := Dmr.Hytera.of_bind_ok h1
  unfold readBytesNotAligned at h
  dsimp only at h
  split at h
  · rename_i hl
    cases h
    intro h0
    simp only [List.length_take, List.length_drop] at hl
    dsimp only at h0
    omega
  · cases h

/-- After a header has been read, the stream is not empty. -/
theorem RealTimeTransportProtocol_length {s s1 : Stream} {x : Dmr.Hytera.RealTimeTransportProtocol.FixedHeader}
    (h : Dmr.Hytera.RealTimeTransportProtocol.FixedHeader.read s = (.ok x, s1)) : s1.buf.length ≠ 0 := by
  unfold Dmr.Hytera.RealTimeTransportProtocol.FixedHeader.read at h
  iterate 10 obtain ⟨_, _, _, h⟩ := Dmr.Hytera.of_bind_ok h
  obtain ⟨_, _, h1, h⟩ := Dmr.Hytera.of_bind_ok h
  obtain ⟨_, _, h2, h⟩ := Dmr.Hytera.of_bind_ok h
  cases h
  rw [kept (Local.repeatN _ Local.readU4be) h2]
  exact readU4be_length h1

/-- okdmr/kaitai/hytera/real_time_transport_protocol.py:15-117 against `Dmr.Hytera.RealTimeTransportProtocol`. -/
@[py] theorem RealTimeTransportProtocol_builds (n : Nat) (H : List Obj) (S : List Stream) (k : Nat) (hk : k < S.length) (s : Stream)
    (parent root : Val) : ((calls library (n + 7)).construct "Hytera.RealTimeTransportProtocol" [.io k, parent, root]).run ⟨H, S.set k s⟩ =
      after Dmr.Hytera.RealTimeTransportProtocol.read s (fun e s' => .raise e ⟨H, S.set k s'⟩)
        (built Dmr.Hytera.RealTimeTransportProtocol.toPy k parent root H S) := by
  rw [construct_eq library _ "Hytera.RealTimeTransportProtocol" _ _ RealTimeTransportProtocol_class rfl rfl]
  py_run [onStream_set _ _ _ _ hk, hk, RealTimeTransportProtocol_fetch, RealTimeTransportProtocol_fetch', Dmr.Hytera.RealTimeTransportProtocol.read, Dmr.Hytera.RealTimeTransportProtocol.toPy,
    Dmr.Hytera.RealTimeTransportProtocol.lenPadding, Dmr.Hytera.RealTimeTransportProtocol.lenPaddingIfExists, Source.Hytera.RealTimeTransportProtocol]
  refine after_congr_ok fun fh s1 h1 => ?_
  have n1 := RealTimeTransportProtocol_length h1
  refine if_congr Iff.rfl (after_congr_ok fun ext s2 h2 => ?_) ?_
  · have n2 : s2.buf.length ≠ 0 := by
      rw [kept (Dmr.Hytera.RealTimeTransportProtocol.HeaderExtension.read_local (G := AnyBuf)) h2]; exact n1
    by_cases hp : fh.padding = true
    · py_run [hp, after_size, after_pos, n2]
    · py_run [hp, after_size, after_pos, Nat.cast_zero]
  · by_cases hp : fh.padding = true
    · py_run [hp, after_size, after_pos, n1]
    · py_run [hp, after_size, after_pos, Nat.cast_zero]

@[py] theorem RealTimeTransportProtocol_short (n k : Nat) : (calls library (n + 7)).construct "Hytera.RealTimeTransportProtocol" [.io k] =
    (calls library (n + 7)).construct "Hytera.RealTimeTransportProtocol" [.io k, .pv .none, .pv .none] := construct_short _ _ _ _ RealTimeTransportProtocol_class rfl _

@[py] theorem RealTimeTransportProtocol_place (io parent root : Val) (b : Nat) (x : Dmr.Hytera.RealTimeTransportProtocol) :
    place io parent root b x.toPy = (.obj b, placeObj io (.pv .none) (.obj b) b x.toPy) :=
  place_file _ _ _ _ _ _ (by decide)

end Dmr.Py.ConformHytera
