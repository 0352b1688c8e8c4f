import Verif.Model.NodeApi

/-!
# Model of `DependencyGraph` (graph_state.py) and `build_dependency_graph` (base_models.py)

Python sets are duplicate-free lists; `f"{value}"` of a constant is an arbitrary function `txt`.
-/

namespace LCL
variable {α σ : Type}

/-- graph_state.py:632-657 — the attributes of a `DependencyGraph`. -/
structure DepGraph where
  params : List Name
  nodes : List Name
  incoming : Dict Name (List Name)
  outgoing : Dict Name (List Name)
  numConst : Nat

namespace DepGraph

/-- graph_state.py:654-659 `__init__`. -/
def empty : DepGraph := ⟨[], [], [], [], 0⟩

/-- graph_state.py:685-689: add a parameter under its full name. -/
def addFull (g : DepGraph) (full : Name) : DepGraph :=
  if full ∈ g.params then g
  else { g with
    params := g.params ++ [full]
    incoming := g.incoming.set full []
    outgoing := g.outgoing.set full [] }

/-- graph_state.py:666-689 `add_parameter(param_name, node_name)`. -/
def addParameter (g : DepGraph) (param node : Name) : DepGraph :=
  ({ g with nodes := if node ∈ g.nodes then g.nodes else g.nodes ++ [node] }).addFull
    (GState.extendedName node param)

/-- graph_state.py:704: `f"const_{self.num_constants}={value}"`. -/
def constName (txt : Val α → Name) (k : Nat) (v : Val α) : Name :=
  "const_".toList ++ (decimal k ++ '=' :: txt v)

/-- graph_state.py:691-707 `add_constant`. -/
def addConstant (txt : Val α → Name) (g : DepGraph) (v : Val α) : DepGraph × Name :=
  (({ g with numConst := g.numConst + 1 }).addFull (constName txt g.numConst v),
   constName txt g.numConst v)

/-- graph_state.py:709-722 `add_edge`. -/
def addEdge (g : DepGraph) (src dst : Name) : Except Err DepGraph :=
  if src ∉ g.params ∨ dst ∉ g.params then .error .keyError
  else
    let g1 := { g with incoming := g.incoming.set dst (((g.incoming.get? dst).getD []) ++ [src]) }
    .ok { g1 with outgoing := g1.outgoing.set src (((g1.outgoing.get? src).getD []) ++ [dst]) }

end DepGraph

namespace Heap

/-- The `value` attribute of a linked source. -/
def _root_.LCL.Src.target : Src α → Name
  | .modelParam _ q => q
  | .funcNode _ q => q
  | .computeOut q => q
  | _ => []

/-- base_models.py:678-694: one iteration of the loop over the setters. -/
def depStep (txt : Val α → Name) (H : Heap α σ) (rec : NodeId → DepGraph → Except Err DepGraph)
    (id : NodeId) (nd : PNode α σ) (g : DepGraph) (q : Name × Setter α) : Except Err DepGraph :=
  let full := GState.extendedName nd.str q.1
  let g := g.addParameter q.1 nd.str
  match q.2.src.dep with
  | some d =>
    if d ≠ id then
      match H[d]? with
      | none => .error .attributeError
      | some dn => do
        let g ← rec d g
        g.addEdge (GState.extendedName dn.str q.2.src.target) full
    else .ok g
  | none => match q.2.src with
    | .const v => (g.addConstant txt v).1.addEdge (g.addConstant txt v).2 full
    | _ => .ok g

/-- base_models.py:928-930: inputs to one computed output. -/
def depArgs (nd : PNode α σ) (out : Name) (g : DepGraph) : Except Err DepGraph :=
  nd.argNames.foldlM (fun g a =>
    g.addEdge (GState.extendedName nd.str a) (GState.extendedName nd.str out)) g

/-- base_models.py:923-930: the cross product of inputs and computed outputs. -/
def depOutputs (nd : PNode α σ) (g : DepGraph) : Except Err DepGraph :=
  nd.setters.foldlM (fun g q => match q.2.src with
    | .computeOut _ => depArgs nd q.1 g
    | _ => .ok g) g

/-- base_models.py:655-694 and 907-930 `_dependency_graph_helper`. -/
def depHelper (txt : Val α → Name) (H : Heap α σ) : Nat → NodeId → DepGraph → Except Err DepGraph
  | 0, _, _ => .error .recursion
  | fuel + 1, id, g =>
    match H[id]? with
    | none => .error .attributeError
    | some nd =>
      if nd.str ∈ g.nodes then .ok g
      else do
        let g ← nd.setters.foldlM (depStep txt H (depHelper txt H fuel) id nd) g
        if nd.isFunc then depOutputs nd g else return g

/-- base_models.py:696-715 `build_dependency_graph` (positions already set). The recursion depth is
bounded by `depth`. -/
def dependencyGraph (txt : Val α → Name) (H : Heap α σ) (depth : Nat) (root : NodeId) :
    Except Err DepGraph := depHelper txt H depth root .empty

end Heap
end LCL
