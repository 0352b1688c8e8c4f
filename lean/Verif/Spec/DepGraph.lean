import Verif.Model.DepGraph
import Verif.Spec.Nodes

/-!
# Specification vocabulary for dependency graphs
-/

namespace LCL.NodeSpec
open LCL
variable {α σ : Type}

/-- `node.param`. -/
def fullName (node param : Name) : Name := node ++ '.' :: param

/-- The entry of the `k`-th constant. -/
def constEntry (txt : Val α → Name) (k : Nat) (v : Val α) : Name :=
  "const_".toList ++ decimal k ++ "=".toList ++ txt v

/-- What a parameter with source `src` of node `nd` directly depends on, as full names in order:
a constant entry, the linked parameter, or all arguments of the function computing it. -/
def DependsOn (txt : Val α → Name) (H : Heap α σ) (nd : PNode α σ) : Src α → List Name → Prop
  | .const v, l => ∃ k, l = [constEntry txt k v]
  | .modelParam d q, l => ∃ dn, H[d]? = some dn ∧ l = [fullName dn.str q]
  | .funcNode d q, l => ∃ dn, H[d]? = some dn ∧ l = [fullName dn.str q]
  | .computeOut _, l => l = nd.argNames.map (fullName nd.str)
  | .undefined, l => l = []

/-- Graphs `build_dependency_graph` is meant for: no cyclic dependencies, distinct dot-free names
that do not look like constant entries, every link pointing to an existing parameter. -/
structure Drawable (txt : Val α → Name) (H : Heap α σ) (root : NodeId) (rank : NodeId → Nat) : Prop where
  acyclic : ∀ a b, Reach H [root] a → Reads H a b → rank b < rank a
  exist : ∀ a, Reach H [root] a → ∃ na, H[a]? = some na
  names : ∀ a b na nb, Reach H [root] a → Reach H [root] b → H[a]? = some na → H[b]? = some nb →
    na.str = nb.str → a = b
  dots : ∀ a na, Reach H [root] a → H[a]? = some na → '.' ∉ na.str ∧ ∀ p ∈ na.setters.keys, '.' ∉ p
  noConst : ∀ a na p k v, Reach H [root] a → H[a]? = some na → fullName na.str p ≠ constEntry txt k v
  keys : ∀ a na, Reach H [root] a → H[a]? = some na → na.setters.keys.Nodup
  targets : ∀ a na, Reach H [root] a → H[a]? = some na → ∀ q ∈ na.setters, ∀ d x,
    (q.2.src = .modelParam d x ∨ q.2.src = .funcNode d x) → ∃ dn, H[d]? = some dn ∧ x ∈ dn.setters.keys
  args : ∀ a na, Reach H [root] a → H[a]? = some na → ∀ x ∈ na.argNames, x ∈ na.setters.keys
  funcs : ∀ a na, Reach H [root] a → H[a]? = some na → ∀ p st o, (p, st) ∈ na.setters →
    st.src = .computeOut o → na.isFunc = true

end LCL.NodeSpec
