import Verif.Model.NodeApi

/-!
# More of `base_models.py`: pytrees, direct `compute` calls, `get_param`, `generate`
-/

namespace LCL.Heap
variable {α σ : Type}

/-! ## `build_pytree` -/

/-- A pytree: node name → parameter name → value (base_models.py:735-739). -/
abbrev Pytree (α : Type) := Dict Name (Dict Name (Val α))

/-- base_models.py:754: `partial[self.node_string][name] = value`. -/
def putLeaf (t : Pytree α) (node name : Name) (v : Val α) : Pytree α :=
  t.set node (((t.get? node).getD []).set name v)

/-- base_models.py:751-758: one iteration of the loop over the setters. -/
def pytreeStep (s : GState α) (rec : NodeId → Pytree α → Except Err (Pytree α)) (nd : PNode α σ)
    (t : Pytree α) (q : Name × Setter α) : Except Err (Pytree α) :=
  if q.2.allowGradient then
    match lookParam s nd.str q.1 with
    | .ok v => .ok (putLeaf t nd.str q.1 v)
    | .error e => .error e
  else match q.2.src.dep with
    | some d => rec d t
    | none => .ok t

/-- base_models.py:717-759 `build_pytree(graph_state, partial)`. -/
def pytreeAux (H : Heap α σ) (s : GState α) : Nat → NodeId → Pytree α → Except Err (Pytree α)
  | 0, _, _ => .error .recursion
  | fuel + 1, id, t =>
    match H[id]? with
    | none => .error .attributeError
    | some nd =>
      if nd.pos = none then .error .valueError
      else if t.has nd.str then .ok t
      else nd.setters.foldlM (pytreeStep s (pytreeAux H s fuel) nd) (t.set nd.str [])

/-- base_models.py:717-759 `build_pytree(graph_state)`. -/
def buildPytree (H : Heap α σ) (s : GState α) (root : NodeId) : Except Err (Pytree α) :=
  pytreeAux H s (H.length + 2) root []

/-! ## `compute` on a caller's graph state

Unlike `Heap.compute`, these keep the graph state the caller sees when an exception is raised. -/

/-- base_models.py:904-905. -/
def saveAllS (nd : PNode α σ) (s : GState α) : List (Name × Val α) → GState α × Option Err
  | [] => (s, none)
  | (name, v) :: rest =>
    match s.set nd.str name v false with
    | (s, none) => saveAllS nd s rest
    | (s, some e) => (s, some e)

/-- base_models.py:885-905 `_save_results`. -/
def saveResultsS (nd : PNode α σ) (s : GState α) (results : Val α) : GState α × Option Err :=
  match nd.outputs with
  | [o] => s.set nd.str o results false
  | outs => match results with
    | .arr rows =>
      if rows.length ≠ outs.length then (s, some .valueError)
      else saveAllS nd s (outs.zip rows)
    | _ => (s, some .typeError)

/-- What a direct `node.compute(graph_state, **kwargs)` leaves behind. -/
structure ComputeResult (α σ : Type) where
  state : GState α
  world : σ
  result : Except Err (Val α)

/-- base_models.py:932-971 `FunctionNode.compute`. -/
def computeS (nd : PNode α σ) (s : GState α) (w : σ) (kwargs : Dict Name (Val α)) : ComputeResult α σ :=
  match nd.body with
  | none => ⟨s, w, .error .valueError⟩
  | some f =>
    match buildInputs nd s kwargs with
    | .error e => ⟨s, w, .error e⟩
    | .ok args =>
      match f w s.numSamples args with
      | (w', .error e) => ⟨s, w', .error e⟩
      | (w', .ok results) =>
        match saveResultsS nd s results with
        | (s', none) => ⟨s', w', .ok results⟩
        | (s', some e) => ⟨s', w', .error e⟩

/-! ## Reading parameters through a node -/

/-- base_models.py:294-325 `get_param` (`graph_state` not `None`). `name in graph_state[node]` is
membership in the node's dictionary. -/
def getParam (nd : PNode α σ) (s : GState α) (name : Name) (dflt : Val α) : Except Err (Val α) :=
  match s.contains nd.str with
  | .error e => .error e
  | .ok (some true) =>
    match s.getItem nd.str with
    | .ok (.node d) => .ok ((d.get? name).getD dflt)
    | .ok _ => .error .typeError
    | .error e => .error e
  | .ok _ => .ok dflt

/-- base_models.py:973-1002 `generate`: the single output, or the list of outputs. -/
def generate (H : Heap α σ) (root : NodeId) (given : Option (GState.UpdateArg α)) (n : Int) (w : σ) :
    Except Err (Val α) := do
  let (H', r) ← sampleParameters H root [] given n w
  match H'[root]? with
  | none => .error .attributeError
  | some nd =>
    match nd.outputs with
    | [o] => getParam nd r.gs o .none
    | outs => return .arr (← outs.mapM fun o => getParam nd r.gs o .none)

end LCL.Heap
