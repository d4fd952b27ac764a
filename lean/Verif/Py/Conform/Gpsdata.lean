import Verif.Py.Base
/-
Generated by tools/mkpyconform.py: the source file of `Hytera.Gpsdata` against the model of its classes.
-/

set_option autoImplicit false
set_option linter.unusedSimpArgs false
set_option maxHeartbeats 1000000

namespace Dmr.Py.ConformHytera

theorem Gpsdata.file : files[3]? = some Source.Hytera.Gpsdata.file := rfl

theorem Gpsdata_class : library.class "Hytera.Gpsdata" = some Source.Hytera.Gpsdata := class_at 3 _ Gpsdata.file 0 Source.Hytera.Gpsdata rfl

@[py] theorem Gpsdata_property (x : String) : library.property "Hytera.Gpsdata" x = Source.Hytera.Gpsdata.properties.lookup x :=
  property_of _ _ _ _ Gpsdata_class

/-- okdmr/kaitai/hytera/gpsdata.py:14-38 against `Dmr.Hytera.Gpsdata`. -/
@[py] theorem Gpsdata_builds (n : Nat) (H : List Obj) (S : List Stream) (k : Nat) (hk : k < S.length) (s : Stream)
    (parent root : Val) : ((calls library (n + 3)).construct "Hytera.Gpsdata" [.io k, parent, root]).run ⟨H, S.set k s⟩ =
      after Dmr.Hytera.Gpsdata.read s (fun e s' => .raise e ⟨H, S.set k s'⟩)
        (built Dmr.Hytera.Gpsdata.toPy k parent root H S) := by
  rw [construct_eq library _ "Hytera.Gpsdata" _ _ Gpsdata_class rfl rfl]
  py_run [onStream_set _ _ _ _ hk, hk, Dmr.Hytera.Gpsdata.read, Dmr.Hytera.Gpsdata.toPy, Source.Hytera.Gpsdata]

@[py] theorem Gpsdata_short (n k : Nat) : (calls library (n + 3)).construct "Hytera.Gpsdata" [.io k] =
    (calls library (n + 3)).construct "Hytera.Gpsdata" [.io k, .pv .none, .pv .none] := construct_short _ _ _ _ Gpsdata_class rfl _

@[py] theorem Gpsdata_place (io parent root : Val) (b : Nat) (x : Dmr.Hytera.Gpsdata) :
    place io parent root b x.toPy = (.obj b, placeObj io (.pv .none) (.obj b) b x.toPy) :=
  place_file _ _ _ _ _ _ (by decide)

end Dmr.Py.ConformHytera
