import Verif.Py.Base
/-
Generated by tools/mkpyconform.py: the source file of `Hytera.Datetimestring` against the model of its classes.
-/

set_option autoImplicit false
set_option linter.unusedSimpArgs false
set_option maxHeartbeats 1000000

namespace Dmr.Py.ConformHytera

theorem Datetimestring.file : files[2]? = some Source.Hytera.Datetimestring.file := rfl

theorem Datetimestring_class : library.class "Hytera.Datetimestring" = some Source.Hytera.Datetimestring := class_at 2 _ Datetimestring.file 0 Source.Hytera.Datetimestring rfl

/-- okdmr/kaitai/hytera/datetimestring.py:14-24 against `Dmr.Hytera.Datetimestring`. -/
@[py] theorem Datetimestring_builds (n : Nat) (H : List Obj) (S : List Stream) (k : Nat) (hk : k < S.length) (s : Stream)
    (parent root : Val) : ((calls library (n + 3)).construct "Hytera.Datetimestring" [.io k, parent, root]).run ⟨H, S.set k s⟩ =
      after Dmr.Hytera.Datetimestring.read s (fun e s' => .raise e ⟨H, S.set k s'⟩)
        (built Dmr.Hytera.Datetimestring.toPy k parent root H S) := by
  rw [construct_eq library _ "Hytera.Datetimestring" _ _ Datetimestring_class rfl rfl]
  py_run [onStream_set _ _ _ _ hk, hk, Dmr.Hytera.Datetimestring.read, Dmr.Hytera.Datetimestring.toPy]

@[py] theorem Datetimestring_short (n k : Nat) : (calls library (n + 3)).construct "Hytera.Datetimestring" [.io k] =
    (calls library (n + 3)).construct "Hytera.Datetimestring" [.io k, .pv .none, .pv .none] := construct_short _ _ _ _ Datetimestring_class rfl _

@[py] theorem Datetimestring_place (io parent root : Val) (b : Nat) (x : Dmr.Hytera.Datetimestring) :
    place io parent root b x.toPy = (.obj b, placeObj io (.pv .none) (.obj b) b x.toPy) :=
  place_file _ _ _ _ _ _ (by decide)

end Dmr.Py.ConformHytera
