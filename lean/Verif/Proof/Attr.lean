import Lean.Meta.Tactic.Simp.RegisterCommand
/-!
# Sets of rewrite rules
-/

/-- Rules that erase the record of text that records what it does. -/
register_simp_attr erase
