/-
The simplification set used to compute with the semantics of Python.
-/
import Lean.Meta.Tactic.Simp.RegisterCommand

/-- Equations that compute with the semantics of Python. -/
register_simp_attr py
