import Verif.Model.NodeMore
import Verif.Spec.NodeApi

/-!
# Specification vocabulary: gradient pytrees and function calls
-/

namespace LCL.NodeSpec
open LCL LCL.GraphSpec
variable {α σ : Type}

/-- Nodes whose gradients are looked for: the root, and dependencies of parameters that do not
themselves allow gradients. -/
inductive GradReach (H : Heap α σ) (root : NodeId) : NodeId → Prop
  | root : GradReach H root root
  | step {a b nd p st} : GradReach H root a → H[a]? = some nd → (p, st) ∈ nd.setters →
      st.allowGradient = false → st.src.dep = some b → GradReach H root b

/-- The pytree holds, for exactly the nodes of `GradReach`, exactly their gradient parameters with
their value in `s`. -/
def IsGradTree (H : Heap α σ) (s : GState α) (root : NodeId) (t : Dict Name (Dict Name (Val α))) : Prop :=
  (∀ m, (∃ d, t.get? m = some d) ↔ ∃ id nd, GradReach H root id ∧ H[id]? = some nd ∧ nd.str = m) ∧
  ∀ id nd d, GradReach H root id → H[id]? = some nd → t.get? nd.str = some d → ∀ p v,
    d.get? p = some v ↔
      (∃ st, (p, st) ∈ nd.setters ∧ st.allowGradient = true) ∧ readParam s nd.str p = some v

/-- The arguments of a call: every declared argument is bound to the caller's keyword argument if
there is one, else to its value in the state; nothing else is passed. -/
def BoundArgs (nd : PNode α σ) (s : GState α) (kwargs args : Dict Name (Val α)) : Prop :=
  (∀ a ∈ nd.argNames, ∃ v, args.get? a = some v ∧
    (kwargs.get? a = some v ∨ kwargs.get? a = none ∧ readParam s nd.str a = some v)) ∧
  ∀ a, a ∉ nd.argNames → args.get? a = none

end LCL.NodeSpec
