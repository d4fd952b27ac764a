import Verif.Ksy.Conform.Base
import Verif.Ksy.Conform.HyteraDmrApplicationProtocol
/-
Generated by tools/mkconform.py: the schema of `HyteraRadioNetworkProtocol` against the model of the Python classes.
-/

set_option linter.unusedSimpArgs false
set_option maxHeartbeats 1000000

namespace Dmr.Ksy.Hytera

@[ksy] theorem resolve_HyteraRadioNetworkProtocol_Opcodes (v : Nat) : Hytera.HyteraRadioNetworkProtocol.Opcodes.resolve v = EnumVal.toPy "Opcodes" (resolveEnum Dmr.Hytera.HyteraRadioNetworkProtocol.Opcodes v) :=
  resolve_eq _ (by decide) v

@[ksy ↓] theorem read_HyteraRadioNetworkProtocol_Opcodes_u1 (ev sub) : readTy ev sub (.primEnum .u1 Hytera.HyteraRadioNetworkProtocol.Opcodes) =
    asEnum Dmr.Hytera.HyteraRadioNetworkProtocol.Opcodes readU1 >>= fun e => pure (some (EnumVal.toPy "Opcodes" e)) :=
  enum_prim resolve_HyteraRadioNetworkProtocol_Opcodes .u1 readU1 rfl ev sub

@[ksy] theorem member_HyteraRadioNetworkProtocol_Opcodes_data : Hytera.HyteraRadioNetworkProtocol.Opcodes.member "data" = pure (.enum "Opcodes" 0) := rfl

@[ksy] theorem same_HyteraRadioNetworkProtocol_Opcodes_data (on : EnumVal Dmr.Hytera.HyteraRadioNetworkProtocol.Opcodes) :
    same (EnumVal.toPy "Opcodes" on) (.enum "Opcodes" 0) = decide (on = .known .data) :=
  same_known _ _ Dmr.Hytera.HyteraRadioNetworkProtocol.Opcodes.data

/-- okdmr/kaitai/hytera/hytera_radio_network_protocol.ksy:1-36 against `Dmr.Hytera.HyteraRadioNetworkProtocol`. -/
@[ksy ↓] theorem HyteraRadioNetworkProtocol_conforms (n : Nat) (sc : Scope) :
    parse (n + 6) sc Hytera.HyteraRadioNetworkProtocol = (fun x => view (Dmr.Hytera.HyteraRadioNetworkProtocol.toPy x)) <$> Dmr.Hytera.HyteraRadioNetworkProtocol.read := by
  rw [parse_succ]
  ksy_simp [Dmr.Hytera.HyteraRadioNetworkProtocol.read, Dmr.Hytera.HyteraRadioNetworkProtocol.toPy]

end Dmr.Ksy.Hytera
