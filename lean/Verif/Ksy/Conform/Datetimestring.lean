import Verif.Ksy.Conform.Base
/-
Generated by tools/mkconform.py: the schema of `Datetimestring` against the model of the Python classes.
-/

set_option linter.unusedSimpArgs false
set_option maxHeartbeats 1000000

namespace Dmr.Ksy.Hytera

/-- okdmr/kaitai/hytera/datetimestring.ksy:1-9 against `Dmr.Hytera.Datetimestring`. -/
@[ksy ↓] theorem Datetimestring_conforms (n : Nat) (sc : Scope) :
    parse (n + 1) sc Hytera.Datetimestring = (fun x => view (Dmr.Hytera.Datetimestring.toPy x)) <$> Dmr.Hytera.Datetimestring.read := by
  rw [parse_succ]
  ksy_simp [Dmr.Hytera.Datetimestring.read, Dmr.Hytera.Datetimestring.toPy]

end Dmr.Ksy.Hytera
