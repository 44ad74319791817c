import Lean.Meta.Tactic.Simp.RegisterCommand
/-!
# A simp set for running the source
-/

/-- Equations that run programs of `Source/Syntax.lean`. -/
register_simp_attr src
