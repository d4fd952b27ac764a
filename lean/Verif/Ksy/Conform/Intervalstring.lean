import Verif.Ksy.Conform.Base
/-
Generated by tools/mkconform.py: the schema of `Intervalstring` against the model of the Python classes.
-/

set_option linter.unusedSimpArgs false
set_option maxHeartbeats 1000000

namespace Dmr.Ksy.Hytera

/-- okdmr/kaitai/hytera/intervalstring.ksy:1-10 against `Dmr.Hytera.Intervalstring`. -/
@[ksy ↓] theorem Intervalstring_conforms (n : Nat) (sc : Scope) :
    parse (n + 1) sc Hytera.Intervalstring = (fun x => view (Dmr.Hytera.Intervalstring.toPy x)) <$> Dmr.Hytera.Intervalstring.read := by
  rw [parse_succ]
  ksy_simp [Dmr.Hytera.Intervalstring.read, Dmr.Hytera.Intervalstring.toPy]

end Dmr.Ksy.Hytera
