import Verif.Ksy.Conform.Base
/-
Generated by tools/mkconform.py: the schema of `RadioId` against the model of the Python classes.
-/

set_option linter.unusedSimpArgs false
set_option maxHeartbeats 1000000

namespace Dmr.Ksy.Hytera

/-- okdmr/kaitai/hytera/radio_id.ksy:1-11 against `Dmr.Hytera.RadioId`. -/
@[ksy ↓] theorem RadioId_conforms (n : Nat) (sc : Scope) :
    parse (n + 1) sc Hytera.RadioId = (fun x => view (Dmr.Hytera.RadioId.toPy x)) <$> Dmr.Hytera.RadioId.read := by
  rw [parse_succ]
  ksy_simp [Dmr.Hytera.RadioId.read, Dmr.Hytera.RadioId.toPy]

end Dmr.Ksy.Hytera
