import Verif.Py.Base
/-
Generated by tools/mkpyconform.py: the source file of `Hytera.Intervalstring` against the model of its classes.
-/

set_option autoImplicit false
set_option linter.unusedSimpArgs false
set_option maxHeartbeats 1000000

namespace Dmr.Py.ConformHytera

theorem Intervalstring.file : files[7]? = some Source.Hytera.Intervalstring.file := rfl

theorem Intervalstring_class : library.class "Hytera.Intervalstring" = some Source.Hytera.Intervalstring := class_at 7 _ Intervalstring.file 0 Source.Hytera.Intervalstring rfl

/-- okdmr/kaitai/hytera/intervalstring.py:14-24 against `Dmr.Hytera.Intervalstring`. -/
@[py] theorem Intervalstring_builds (n : Nat) (H : List Obj) (S : List Stream) (k : Nat) (hk : k < S.length) (s : Stream)
    (parent root : Val) : ((calls library (n + 3)).construct "Hytera.Intervalstring" [.io k, parent, root]).run ⟨H, S.set k s⟩ =
      after Dmr.Hytera.Intervalstring.read s (fun e s' => .raise e ⟨H, S.set k s'⟩)
        (built Dmr.Hytera.Intervalstring.toPy k parent root H S) := by
  rw [construct_eq library _ "Hytera.Intervalstring" _ _ Intervalstring_class rfl rfl]
  py_run [onStream_set _ _ _ _ hk, hk, Dmr.Hytera.Intervalstring.read, Dmr.Hytera.Intervalstring.toPy]

@[py] theorem Intervalstring_short (n k : Nat) : (calls library (n + 3)).construct "Hytera.Intervalstring" [.io k] =
    (calls library (n + 3)).construct "Hytera.Intervalstring" [.io k, .pv .none, .pv .none] := construct_short _ _ _ _ Intervalstring_class rfl _

@[py] theorem Intervalstring_place (io parent root : Val) (b : Nat) (x : Dmr.Hytera.Intervalstring) :
    place io parent root b x.toPy = (.obj b, placeObj io (.pv .none) (.obj b) b x.toPy) :=
  place_file _ _ _ _ _ _ (by decide)

end Dmr.Py.ConformHytera
