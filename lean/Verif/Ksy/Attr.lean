import Lean
/-
A simp set for computing what a schema means.
-/

/-- Equations of the interpreter of the schemas (Verif/Ksy/Lang.lean). -/
register_simp_attr ksy
