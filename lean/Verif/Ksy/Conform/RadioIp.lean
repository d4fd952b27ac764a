import Verif.Ksy.Conform.Base
/-
Generated by tools/mkconform.py: the schema of `RadioIp` against the model of the Python classes.
-/

set_option linter.unusedSimpArgs false
set_option maxHeartbeats 1000000

namespace Dmr.Ksy.Hytera

/-- okdmr/kaitai/hytera/radio_ip.ksy:1-20 against `Dmr.Hytera.RadioIp`. -/
@[ksy ↓] theorem RadioIp_conforms (n : Nat) (sc : Scope) :
    parse (n + 1) sc Hytera.RadioIp = (fun x => view (Dmr.Hytera.RadioIp.toPy x)) <$> Dmr.Hytera.RadioIp.read := by
  rw [parse_succ]
  ksy_simp [Dmr.Hytera.RadioIp.read, Dmr.Hytera.RadioIp.toPy]

end Dmr.Ksy.Hytera
