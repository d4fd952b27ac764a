import Verif.Ksy.Conform.Base
/-
Generated by tools/mkconform.py: the schema of `Gpsdata` against the model of the Python classes.
-/

set_option linter.unusedSimpArgs false
set_option maxHeartbeats 1000000

namespace Dmr.Ksy.Hytera

/-- okdmr/kaitai/hytera/gpsdata.ksy:1-36 against `Dmr.Hytera.Gpsdata`. -/
@[ksy ↓] theorem Gpsdata_conforms (n : Nat) (sc : Scope) :
    parse (n + 1) sc Hytera.Gpsdata = (fun x => view (Dmr.Hytera.Gpsdata.toPy x)) <$> Dmr.Hytera.Gpsdata.read := by
  rw [parse_succ]
  ksy_simp [Dmr.Hytera.Gpsdata.read, Dmr.Hytera.Gpsdata.toPy]

end Dmr.Ksy.Hytera
