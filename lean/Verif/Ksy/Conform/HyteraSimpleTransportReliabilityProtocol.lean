import Verif.Ksy.Conform.Base
import Verif.Ksy.Conform.HyteraDmrApplicationProtocol
/-
Generated by tools/mkconform.py: the schema of `HyteraSimpleTransportReliabilityProtocol` against the model of the Python classes.
-/

set_option linter.unusedSimpArgs false
set_option maxHeartbeats 1000000

namespace Dmr.Ksy.Hytera

@[ksy] theorem resolve_HyteraSimpleTransportReliabilityProtocol_OptionCommands (v : Nat) : Hytera.HyteraSimpleTransportReliabilityProtocol.OptionCommands.resolve v = EnumVal.toPy "OptionCommands" (resolveEnum Dmr.Hytera.HyteraSimpleTransportReliabilityProtocol.OptionCommands v) :=
  resolve_eq _ (by decide) v

@[ksy ↓] theorem read_HyteraSimpleTransportReliabilityProtocol_OptionCommands_b7 (ev sub) : readTy ev sub (.bitsEnum 7 Hytera.HyteraSimpleTransportReliabilityProtocol.OptionCommands) =
    asEnum Dmr.Hytera.HyteraSimpleTransportReliabilityProtocol.OptionCommands (readBitsIntBe 7) >>= fun e => pure (some (EnumVal.toPy "OptionCommands" e)) :=
  enum_bits resolve_HyteraSimpleTransportReliabilityProtocol_OptionCommands ev sub 7

/-- okdmr/kaitai/hytera/hytera_simple_transport_reliability_protocol.ksy:48-58 against `Dmr.Hytera.HyteraSimpleTransportReliabilityProtocol.Option`. -/
@[ksy ↓] theorem HyteraSimpleTransportReliabilityProtocol_Option_conforms (n : Nat) (sc : Scope) :
    parse (n + 1) sc Hytera.HyteraSimpleTransportReliabilityProtocol.Option = (fun x => view (Dmr.Hytera.HyteraSimpleTransportReliabilityProtocol.Option.toPy x)) <$> Dmr.Hytera.HyteraSimpleTransportReliabilityProtocol.Option.read := by
  rw [parse_succ]
  ksy_simp [Dmr.Hytera.HyteraSimpleTransportReliabilityProtocol.Option.read, Dmr.Hytera.HyteraSimpleTransportReliabilityProtocol.Option.toPy]

@[ksy] theorem HyteraSimpleTransportReliabilityProtocol_Option_more
    (x : Dmr.Hytera.HyteraSimpleTransportReliabilityProtocol.Option) :
    getAttr (view (Dmr.Hytera.HyteraSimpleTransportReliabilityProtocol.Option.toPy x)) "expect_more_options" =
      pure (.bool x.expect_more_options) := by
  ksy_simp [Dmr.Hytera.HyteraSimpleTransportReliabilityProtocol.Option.toPy, get_attr]

/-- okdmr/kaitai/hytera/hytera_simple_transport_reliability_protocol.ksy against
`Dmr.Hytera.HyteraSimpleTransportReliabilityProtocol`. -/
@[ksy ↓] theorem HyteraSimpleTransportReliabilityProtocol_conforms (n : Nat) (sc : Scope) :
    parse (n + 6) sc Hytera.HyteraSimpleTransportReliabilityProtocol =
      (fun x => view (Dmr.Hytera.HyteraSimpleTransportReliabilityProtocol.toPy x)) <$>
        Dmr.Hytera.HyteraSimpleTransportReliabilityProtocol.read := by
  rw [parse_succ]
  ksy_simp [Dmr.Hytera.HyteraSimpleTransportReliabilityProtocol.read, Dmr.Hytera.HyteraSimpleTransportReliabilityProtocol.toPy]

end Dmr.Ksy.Hytera
