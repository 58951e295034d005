import Lean.Elab.Tactic.Basic
/-!
# Equality by evaluation in the kernel

`kernel_rfl` proves `a = b` by `Eq.refl a`, without a check in the elaborator: the kernel compares the two sides.
-/
open Lean Meta Elab Tactic in
elab "kernel_rfl" : tactic => do
  let g ← getMainGoal
  let some (_, l, _) := (← g.getType').eq? | throwError "not an equality"
  g.assign (← mkEqRefl l)
