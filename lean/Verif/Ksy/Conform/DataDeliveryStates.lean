import Verif.Ksy.Conform.Base
import Verif.Ksy.Conform.RadioIp
/-
Generated by tools/mkconform.py: the schema of `DataDeliveryStates` against the model of the Python classes.
-/

set_option linter.unusedSimpArgs false
set_option maxHeartbeats 1000000

namespace Dmr.Ksy.Hytera

@[ksy] theorem resolve_DataDeliveryStates_StateTypes (v : Nat) : Hytera.DataDeliveryStates.StateTypes.resolve v = EnumVal.toPy "StateTypes" (resolveEnum Dmr.Hytera.DataDeliveryStates.StateTypes v) :=
  resolve_eq _ (by decide) v

@[ksy ↓] theorem read_DataDeliveryStates_StateTypes_u1 (ev sub) : readTy ev sub (.primEnum .u1 Hytera.DataDeliveryStates.StateTypes) =
    asEnum Dmr.Hytera.DataDeliveryStates.StateTypes readU1 >>= fun e => pure (some (EnumVal.toPy "StateTypes" e)) :=
  enum_prim resolve_DataDeliveryStates_StateTypes .u1 readU1 rfl ev sub

@[ksy] theorem resolve_DataDeliveryStates_Results (v : Nat) : Hytera.DataDeliveryStates.Results.resolve v = EnumVal.toPy "Results" (resolveEnum Dmr.Hytera.DataDeliveryStates.Results v) :=
  resolve_eq _ (by decide) v

@[ksy ↓] theorem read_DataDeliveryStates_Results_u1 (ev sub) : readTy ev sub (.primEnum .u1 Hytera.DataDeliveryStates.Results) =
    asEnum Dmr.Hytera.DataDeliveryStates.Results readU1 >>= fun e => pure (some (EnumVal.toPy "Results" e)) :=
  enum_prim resolve_DataDeliveryStates_Results .u1 readU1 rfl ev sub

/-- okdmr/kaitai/hytera/data_delivery_states.ksy:1-38 against `Dmr.Hytera.DataDeliveryStates`. -/
@[ksy ↓] theorem DataDeliveryStates_conforms (n : Nat) (sc : Scope) :
    parse (n + 2) sc Hytera.DataDeliveryStates = (fun x => view (Dmr.Hytera.DataDeliveryStates.toPy x)) <$> Dmr.Hytera.DataDeliveryStates.read := by
  rw [parse_succ]
  ksy_simp [Dmr.Hytera.DataDeliveryStates.read, Dmr.Hytera.DataDeliveryStates.toPy]

end Dmr.Ksy.Hytera
