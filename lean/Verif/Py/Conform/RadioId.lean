import Verif.Py.Base
/-
Generated by tools/mkpyconform.py: the source file of `Hytera.RadioId` against the model of its classes.
-/

set_option autoImplicit false
set_option linter.unusedSimpArgs false
set_option maxHeartbeats 1000000

namespace Dmr.Py.ConformHytera

theorem RadioId.file : files[12]? = some Source.Hytera.RadioId.file := rfl

theorem RadioId_class : library.class "Hytera.RadioId" = some Source.Hytera.RadioId := class_at 12 _ RadioId.file 0 Source.Hytera.RadioId rfl

@[py] theorem RadioId_property (x : String) : library.property "Hytera.RadioId" x = Source.Hytera.RadioId.properties.lookup x :=
  property_of _ _ _ _ RadioId_class

/-- okdmr/kaitai/hytera/radio_id.py:14-32 against `Dmr.Hytera.RadioId`. -/
@[py] theorem RadioId_builds (n : Nat) (H : List Obj) (S : List Stream) (k : Nat) (hk : k < S.length) (s : Stream)
    (parent root : Val) : ((calls library (n + 3)).construct "Hytera.RadioId" [.io k, parent, root]).run ⟨H, S.set k s⟩ =
      after Dmr.Hytera.RadioId.read s (fun e s' => .raise e ⟨H, S.set k s'⟩)
        (built Dmr.Hytera.RadioId.toPy k parent root H S) := by
  rw [construct_eq library _ "Hytera.RadioId" _ _ RadioId_class rfl rfl]
  py_run [onStream_set _ _ _ _ hk, hk, Dmr.Hytera.RadioId.read, Dmr.Hytera.RadioId.toPy, Source.Hytera.RadioId]

@[py] theorem RadioId_short (n k : Nat) : (calls library (n + 3)).construct "Hytera.RadioId" [.io k] =
    (calls library (n + 3)).construct "Hytera.RadioId" [.io k, .pv .none, .pv .none] := construct_short _ _ _ _ RadioId_class rfl _

@[py] theorem RadioId_place (io parent root : Val) (b : Nat) (x : Dmr.Hytera.RadioId) :
    place io parent root b x.toPy = (.obj b, placeObj io (.pv .none) (.obj b) b x.toPy) :=
  place_file _ _ _ _ _ _ (by decide)

end Dmr.Py.ConformHytera
