/-
A tactic for equations that hold by computation.
-/
import Lean.Elab.Tactic.Basic
import Lean.Meta.AppBuilder

open Lean Meta Elab Tactic in
/-- Proves `a = b` by `Eq.refl a`. Only the kernel compares the two sides, when it checks the proof. -/
elab "kernel_rfl" : tactic => do
  let g ← getMainGoal
  let some (_, a, _) := (← instantiateMVars (← g.getType)).eq? | throwError "kernel_rfl: no equation"
  g.assign (← mkEqRefl a)
