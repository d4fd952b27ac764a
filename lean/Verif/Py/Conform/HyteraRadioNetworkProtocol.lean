import Verif.Py.Base
import Verif.Py.Conform.HyteraDmrApplicationProtocol
/-
Generated by tools/mkpyconform.py: the source file of `Hytera.HyteraRadioNetworkProtocol` against the model of its classes.
-/

set_option autoImplicit false
set_option linter.unusedSimpArgs false
set_option maxHeartbeats 1000000

namespace Dmr.Py.ConformHytera

theorem HyteraRadioNetworkProtocol.file : files[5]? = some Source.Hytera.HyteraRadioNetworkProtocol.file := rfl

theorem enum_HyteraRadioNetworkProtocol_Opcodes : library.enums.find? (fun e => e.qualified == "Hytera.HyteraRadioNetworkProtocol.Opcodes") = some Source.Hytera.HyteraRadioNetworkProtocol.Opcodes := enum_at 5 _ HyteraRadioNetworkProtocol.file 0 Source.Hytera.HyteraRadioNetworkProtocol.Opcodes rfl

@[py] theorem resolve_HyteraRadioNetworkProtocol_Opcodes (v : Nat) : resolve library "Hytera.HyteraRadioNetworkProtocol.Opcodes" (.pv (.int (v : Int))) =
    pure (.pv (EnumVal.toPy "Opcodes" (resolveEnum Dmr.Hytera.HyteraRadioNetworkProtocol.Opcodes v))) := run_resolve Source.Hytera.HyteraRadioNetworkProtocol.Opcodes enum_HyteraRadioNetworkProtocol_Opcodes (by decide) v

@[py] theorem member_HyteraRadioNetworkProtocol_Opcodes_data : member library "Hytera.HyteraRadioNetworkProtocol.Opcodes" "data" = pure (.pv (.enum "Opcodes" 0)) := member_of enum_HyteraRadioNetworkProtocol_Opcodes rfl

@[py] theorem same_HyteraRadioNetworkProtocol_Opcodes_data (on : EnumVal Dmr.Hytera.HyteraRadioNetworkProtocol.Opcodes) :
    same (.pv (EnumVal.toPy "Opcodes" on)) (.pv (.enum "Opcodes" 0)) = decide (on = .known .data) :=
  same_known _ _ Dmr.Hytera.HyteraRadioNetworkProtocol.Opcodes.data

theorem HyteraRadioNetworkProtocol_class : library.class "Hytera.HyteraRadioNetworkProtocol" = some Source.Hytera.HyteraRadioNetworkProtocol := class_at 5 _ HyteraRadioNetworkProtocol.file 0 Source.Hytera.HyteraRadioNetworkProtocol rfl

/-- okdmr/kaitai/hytera/hytera_radio_network_protocol.py:17-53 against `Dmr.Hytera.HyteraRadioNetworkProtocol`. -/
@[py] theorem HyteraRadioNetworkProtocol_builds (n : Nat) (H : List Obj) (S : List Stream) (k : Nat) (hk : k < S.length) (s : Stream)
    (parent root : Val) : ((calls library (n + 13)).construct "Hytera.HyteraRadioNetworkProtocol" [.io k, parent, root]).run ⟨H, S.set k s⟩ =
      after Dmr.Hytera.HyteraRadioNetworkProtocol.read s (fun e s' => .raise e ⟨H, S.set k s'⟩)
        (built Dmr.Hytera.HyteraRadioNetworkProtocol.toPy k parent root H S) := by
  rw [construct_eq library _ "Hytera.HyteraRadioNetworkProtocol" _ _ HyteraRadioNetworkProtocol_class rfl rfl]
  py_run [onStream_set _ _ _ _ hk, hk, Dmr.Hytera.HyteraRadioNetworkProtocol.read, Dmr.Hytera.HyteraRadioNetworkProtocol.toPy]

@[py] theorem HyteraRadioNetworkProtocol_short (n k : Nat) : (calls library (n + 13)).construct "Hytera.HyteraRadioNetworkProtocol" [.io k] =
    (calls library (n + 13)).construct "Hytera.HyteraRadioNetworkProtocol" [.io k, .pv .none, .pv .none] := construct_short _ _ _ _ HyteraRadioNetworkProtocol_class rfl _

@[py] theorem HyteraRadioNetworkProtocol_place (io parent root : Val) (b : Nat) (x : Dmr.Hytera.HyteraRadioNetworkProtocol) :
    place io parent root b x.toPy = (.obj b, placeObj io (.pv .none) (.obj b) b x.toPy) :=
  place_file _ _ _ _ _ _ (by decide)

end Dmr.Py.ConformHytera
