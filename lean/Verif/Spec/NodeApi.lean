import Verif.Model.NodeApi
import Verif.Spec.Nodes

/-!
# Specification vocabulary for building parameter graphs
-/

namespace LCL.ApiSpec
open LCL LCL.NodeSpec
variable {α σ : Type}

/-- The source of parameter `p` of node `id` (with its gradient flag); `none` if there is no such
parameter. -/
def sourceOf (H : Heap α σ) (id : NodeId) (p : Name) : Option (Setter α) :=
  match H[id]? with
  | some nd => nd.setters.get? p
  | none => none

/-- The node has a parameter of this name. -/
def HasParam (H : Heap α σ) (id : NodeId) (p : Name) : Prop := ∃ st, sourceOf H id p = some st

/-- The documented value: the explicit one, or, when that is `None`, the keyword argument with the
parameter's name if there is one. -/
inductive Chosen (name : Name) (kwargs : List (Name × PyVal α σ)) : PyVal α σ → PyVal α σ → Prop
  | explicit {v} : v ≠ .const .none → Chosen name kwargs v v
  | keyword {v} : Dict.get? kwargs name = some v → Chosen name kwargs (.const .none) v
  | absent : Dict.get? kwargs name = none → Chosen name kwargs (.const .none) (.const .none)

/-- What a value given for parameter `name` of node `id` denotes as a source. `H` is the heap
before and `H'` the one after the call (a plain callable is wrapped in a new function node, which
takes the keyword arguments as its arguments). -/
inductive Means (H H' : Heap α σ) (id : NodeId) (name : Name) (kwargs : List (Name × PyVal α σ)) :
    PyVal α σ → Setter α → Prop
  | const {v} : Means H H' id name kwargs (.const v) ⟨.const v, true⟩
  | getter {parent m} : HasParam H parent m →
      Means H H' id name kwargs (.method parent m) ⟨.modelParam parent m, false⟩
  | output {v vn} : H[v]? = some vn → vn.isFunc = true → name ∈ vn.outputs →
      Means H H' id name kwargs (.node v) ⟨.funcNode v name, false⟩
  | result {v vn} : H[v]? = some vn → vn.isFunc = true → name ∉ vn.outputs →
      Means H H' id name kwargs (.node v) ⟨.funcNode v "function_node_result".toList, false⟩
  | sameName {v vn} : H[v]? = some vn → vn.isFunc = false → v ≠ id → HasParam H v name →
      Means H H' id name kwargs (.node v) ⟨.modelParam v name, false⟩
  | callable {f b new nn} : H.length ≤ new → H'[new]? = some nn → nn.isFunc = true →
      nn.funcName = some f → nn.body = some b → nn.outputs = ["function_node_result".toList] →
      nn.argNames = kwargs.map (·.1) →
      Means H H' id name kwargs (.func f b) ⟨.funcNode new "function_node_result".toList, false⟩

/-- A call that may change the source of parameter `p` of node `id`. -/
def Targets (id : NodeId) (p : Name) : ApiOp α σ → Prop
  | .addParameter i n _ _ _ => i = id ∧ n = p
  | .setParameter i n _ _ => i = id ∧ n = p
  | .setAllowGradient i n _ => i = id ∧ n = p
  | _ => False

/-- The history never overrides a declared output of a function node with `set_parameter`. -/
def KeepsOutputs : Heap α σ → List (ApiOp α σ) → Prop
  | _, [] => True
  | H, op :: ops =>
    (match op with
      | .setParameter id name _ _ => ∀ nd, H[id]? = some nd → name ∉ nd.outputs
      | _ => True) ∧ KeepsOutputs (H.apply op).1 ops

/-- No link dangles: a linked parameter is a parameter of the node it points to, a function link
points to a function node. -/
def LinksExist (H : Heap α σ) : Prop :=
  ∀ id p st, sourceOf H id p = some st →
    (∀ d q, st.src = .modelParam d q → HasParam H d q) ∧
    (∀ d q, st.src = .funcNode d q → ∃ dn, H[d]? = some dn ∧ dn.isFunc = true)

end LCL.ApiSpec
