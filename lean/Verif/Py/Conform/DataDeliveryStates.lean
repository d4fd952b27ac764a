import Verif.Py.Base
import Verif.Py.Conform.RadioIp
/-
Generated by tools/mkpyconform.py: the source file of `Hytera.DataDeliveryStates` against the model of its classes.
-/

set_option autoImplicit false
set_option linter.unusedSimpArgs false
set_option maxHeartbeats 1000000

namespace Dmr.Py.ConformHytera

theorem DataDeliveryStates.file : files[0]? = some Source.Hytera.DataDeliveryStates.file := rfl

theorem enum_DataDeliveryStates_StateTypes : library.enums.find? (fun e => e.qualified == "Hytera.DataDeliveryStates.StateTypes") = some Source.Hytera.DataDeliveryStates.StateTypes := enum_at 0 _ DataDeliveryStates.file 0 Source.Hytera.DataDeliveryStates.StateTypes rfl

@[py] theorem resolve_DataDeliveryStates_StateTypes (v : Nat) : resolve library "Hytera.DataDeliveryStates.StateTypes" (.pv (.int (v : Int))) =
    pure (.pv (EnumVal.toPy "StateTypes" (resolveEnum Dmr.Hytera.DataDeliveryStates.StateTypes v))) := run_resolve Source.Hytera.DataDeliveryStates.StateTypes enum_DataDeliveryStates_StateTypes (by decide) v

theorem enum_DataDeliveryStates_Results : library.enums.find? (fun e => e.qualified == "Hytera.DataDeliveryStates.Results") = some Source.Hytera.DataDeliveryStates.Results := enum_at 0 _ DataDeliveryStates.file 1 Source.Hytera.DataDeliveryStates.Results rfl

@[py] theorem resolve_DataDeliveryStates_Results (v : Nat) : resolve library "Hytera.DataDeliveryStates.Results" (.pv (.int (v : Int))) =
    pure (.pv (EnumVal.toPy "Results" (resolveEnum Dmr.Hytera.DataDeliveryStates.Results v))) := run_resolve Source.Hytera.DataDeliveryStates.Results enum_DataDeliveryStates_Results (by decide) v

theorem DataDeliveryStates_class : library.class "Hytera.DataDeliveryStates" = some Source.Hytera.DataDeliveryStates := class_at 0 _ DataDeliveryStates.file 0 Source.Hytera.DataDeliveryStates rfl

/-- okdmr/kaitai/hytera/data_delivery_states.py:17-52 against `Dmr.Hytera.DataDeliveryStates`. -/
@[py] theorem DataDeliveryStates_builds (n : Nat) (H : List Obj) (S : List Stream) (k : Nat) (hk : k < S.length) (s : Stream)
    (parent root : Val) : ((calls library (n + 5)).construct "Hytera.DataDeliveryStates" [.io k, parent, root]).run ⟨H, S.set k s⟩ =
      after Dmr.Hytera.DataDeliveryStates.read s (fun e s' => .raise e ⟨H, S.set k s'⟩)
        (built Dmr.Hytera.DataDeliveryStates.toPy k parent root H S) := by
  rw [construct_eq library _ "Hytera.DataDeliveryStates" _ _ DataDeliveryStates_class rfl rfl]
  py_run [onStream_set _ _ _ _ hk, hk, Dmr.Hytera.DataDeliveryStates.read, Dmr.Hytera.DataDeliveryStates.toPy]

@[py] theorem DataDeliveryStates_short (n k : Nat) : (calls library (n + 5)).construct "Hytera.DataDeliveryStates" [.io k] =
    (calls library (n + 5)).construct "Hytera.DataDeliveryStates" [.io k, .pv .none, .pv .none] := construct_short _ _ _ _ DataDeliveryStates_class rfl _

@[py] theorem DataDeliveryStates_place (io parent root : Val) (b : Nat) (x : Dmr.Hytera.DataDeliveryStates) :
    place io parent root b x.toPy = (.obj b, placeObj io (.pv .none) (.obj b) b x.toPy) :=
  place_file _ _ _ _ _ _ (by decide)

end Dmr.Py.ConformHytera
