import Lean.Elab.Tactic.Basic

/-!
# Equalities that hold by computation

`krfl` closes a goal `a = b` with the term `Eq.refl b` without asking the elaborator to compare the two sides: the kernel does the comparison when the theorem is added.
Nothing but the kernel accepts the result; the elaborator is only too slow for graphs of more than a dozen nodes.
-/

open Lean Elab Tactic Meta in
/-- `a = b` by computation in the kernel. -/
elab "krfl" : tactic => do
  let g ← getMainGoal
  let t ← instantiateMVars (← g.getType)
  let some (_, _, r) := t.eq? | throwError "not an equality"
  g.assign (← mkEqRefl r)
  replaceMainGoal []
