/-
The simplification set used to run computations on a given memory.
-/
import Lean.Meta.Tactic.Simp.RegisterCommand

/-- Equations that run computations on a given memory, one step after the other. -/
register_simp_attr pyrun
