import Lean.Meta.Tactic.Simp.RegisterCommand
/-- Simp set: symbolic execution of readers on canonical stream states. -/
register_simp_attr rd
