import Verif.Py.Base
/-
Generated by tools/mkpyconform.py: the source file of `Hytera.RadioIp` against the model of its classes.
-/

set_option autoImplicit false
set_option linter.unusedSimpArgs false
set_option maxHeartbeats 1000000

namespace Dmr.Py.ConformHytera

theorem RadioIp.file : files[13]? = some Source.Hytera.RadioIp.file := rfl

theorem RadioIp_class : library.class "Hytera.RadioIp" = some Source.Hytera.RadioIp := class_at 13 _ RadioIp.file 0 Source.Hytera.RadioIp rfl

@[py] theorem RadioIp_property (x : String) : library.property "Hytera.RadioIp" x = Source.Hytera.RadioIp.properties.lookup x :=
  property_of _ _ _ _ RadioIp_class

/-- okdmr/kaitai/hytera/radio_ip.py:14-56 against `Dmr.Hytera.RadioIp`. -/
@[py] theorem RadioIp_builds (n : Nat) (H : List Obj) (S : List Stream) (k : Nat) (hk : k < S.length) (s : Stream)
    (parent root : Val) : ((calls library (n + 3)).construct "Hytera.RadioIp" [.io k, parent, root]).run ⟨H, S.set k s⟩ =
      after Dmr.Hytera.RadioIp.read s (fun e s' => .raise e ⟨H, S.set k s'⟩)
        (built Dmr.Hytera.RadioIp.toPy k parent root H S) := by
  rw [construct_eq library _ "Hytera.RadioIp" _ _ RadioIp_class rfl rfl]
  py_run [onStream_set _ _ _ _ hk, hk, Dmr.Hytera.RadioIp.read, Dmr.Hytera.RadioIp.toPy, Source.Hytera.RadioIp]

@[py] theorem RadioIp_short (n k : Nat) : (calls library (n + 3)).construct "Hytera.RadioIp" [.io k] =
    (calls library (n + 3)).construct "Hytera.RadioIp" [.io k, .pv .none, .pv .none] := construct_short _ _ _ _ RadioIp_class rfl _

@[py] theorem RadioIp_place (io parent root : Val) (b : Nat) (x : Dmr.Hytera.RadioIp) :
    place io parent root b x.toPy = (.obj b, placeObj io (.pv .none) (.obj b) b x.toPy) :=
  place_file _ _ _ _ _ _ (by decide)

end Dmr.Py.ConformHytera
