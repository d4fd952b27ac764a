import Lean
/-
A simp set for computing what a Python program does.
-/

/-- Equations of the interpreter of the source files (Verif/Py/Semantics.lean). -/
register_simp_attr py
