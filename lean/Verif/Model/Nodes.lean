import Verif.Model.GraphState

/-!
# Model of `src/lightcurvelynx/base_models.py`

Nodes are Python objects: they live in a heap (a list), a `NodeId` is the object identity
(`ParameterizedNode` defines no `__eq__`, so `==`, `!=`, `is` and `in` on nodes compare identity).

Simplifications, for the whole file:
* what a function node computes is an arbitrary function `body` of an arbitrary world `σ` (random
  number generators, counters of stateful samplers, anything else), of `num_samples` and of the
  argument dictionary; subclasses overriding `compute` (samplers) are instances of this, since all
  of them build inputs, compute, and save results. `rng_info` and extra `kwargs` of
  `sample_parameters` are part of the world;
* a tuple/list of results is `Val.arr`;
* the recursion in the code is bounded by a fuel argument; `Err.recursion` never occurs with the
  fuel used by the entry points (proved);
* `setters[...].node_name` (a debugging label) is left out.
-/

namespace LCL

abbrev NodeId := Nat

/-- base_models.py:61-166 `ParameterSource`: `source_type`, `value` and `dependency`.
Through the public API `dependency` is set exactly for the two linked kinds. -/
inductive Src (α : Type)
  | undefined
  | const (v : Val α)
  | modelParam (dep : NodeId) (q : Name)
  | funcNode (dep : NodeId) (q : Name)
  | computeOut (q : Name)

/-- base_models.py:91-97: the source with its `allow_gradient` flag. -/
structure Setter (α : Type) where
  src : Src α
  allowGradient : Bool

/-- base_models.py:61-166: the `dependency` attribute. -/
def Src.dep {α : Type} : Src α → Option NodeId
  | .modelParam d _ => some d
  | .funcNode d _ => some d
  | _ => none

/-- base_models.py:169-210 and 762-844: the attributes of a node. `attrs` are the attribute names
the Python class already has (for `hasattr`), `body` is what `compute` evaluates
(`none`: `func is None` and `compute` not overridden). -/
structure PNode (α σ : Type) where
  cls : Name
  label : Option Name
  isFunc : Bool
  funcName : Option Name
  body : Option (σ → Nat → Dict Name (Val α) → σ × Except Err (Val α))
  attrs : List Name
  pos : Option Nat
  str : Name
  setters : Dict Name (Setter α)
  argNames : List Name
  outputs : List Name

abbrev Heap (α σ : Type) := List (PNode α σ)

/-- Decimal digits, most significant first (`f"{n}"`). -/
def decimal (n : Nat) : Name :=
  if n < 10 then [Char.ofNat (48 + n)]
  else decimal (n / 10) ++ [Char.ofNat (48 + n % 10)]
termination_by n
decreasing_by omega

namespace PNode
variable {α σ : Type}

/-- base_models.py:230-233 / 855-858: the automatic name. -/
def autoName (nd : PNode α σ) (pos : Option Nat) : Name :=
  let posString := match pos with | some k => '_' :: decimal k | none => []
  if nd.isFunc then
    nd.cls ++ (match nd.funcName with | some f => ':' :: f | none => []) ++ posString
  else nd.cls ++ posString

/-- base_models.py:216-237 and 851-859 `_update_node_string` (called without `new_str`). -/
def updateString (nd : PNode α σ) : PNode α σ :=
  { nd with str := match nd.label with
      | some l => l
      | none => nd.autoName nd.pos }

/-- The `dependency` attributes of the node's setters, in order. -/
def deps (nd : PNode α σ) : List NodeId := nd.setters.filterMap fun q => q.2.src.dep

end PNode

namespace Heap
variable {α σ : Type}

/-! ## Graph positions -/

/-- base_models.py:239-262 `set_graph_positions`, the traversal. The accumulator is `seen_nodes`
in insertion order: `node_pos = len(seen_nodes) - 1` is the index in this list. -/
def visit (H : Heap α σ) : Nat → NodeId → List NodeId → Except Err (List NodeId)
  | 0, _, _ => .error .recursion
  | fuel + 1, id, seen =>
    if id ∈ seen then .ok seen
    else match H[id]? with
      | none => .error .attributeError
      | some nd =>
        nd.setters.foldlM (fun seen q =>
          match q.2.src.dep with
          | some d => if d ≠ id then visit H fuel d seen else .ok seen
          | none => .ok seen) (seen ++ [id])

/-- multi_object_model.py:66-81 (roots `self :: objects`; for an ordinary node just `[self]`).
Objects that are themselves multi-object models are not modelled here. -/
def visitAll (H : Heap α σ) (roots : List NodeId) : Except Err (List NodeId) :=
  roots.foldlM (fun seen r => visit H (H.length + 1) r seen) []

/-- base_models.py:256-257: position and string of every visited node. -/
def assign (H : Heap α σ) (order : List NodeId) : Heap α σ :=
  H.mapIdx fun i nd =>
    match order.idxOf? i with
    | some k => ({ nd with pos := some k } : PNode α σ).updateString
    | none => nd

/-- base_models.py:239-262 `set_graph_positions`. -/
def setPositions (H : Heap α σ) (roots : List NodeId) : Except Err (Heap α σ) := do
  return assign H (← visitAll H roots)

/-! ## Sampling -/

/-- What a sampling run carries: the graph state, the world, `seen_nodes`
(name → node) and, as ghost state, the log of `compute` calls (node, arguments, result). -/
structure Run (α σ : Type) where
  gs : GState α
  world : σ
  seen : Dict Name NodeId
  calls : List (NodeId × Dict Name (Val α) × Val α)

/-- `graph_state[node][param]`. -/
def lookParam (s : GState α) (node param : Name) : Except Err (Val α) :=
  match s.getItem node with
  | .ok (.node d) => match d.get? param with
    | some v => .ok v
    | none => .error .keyError
  | .ok _ => .error .typeError
  | .error e => .error e

/-- `graph_state.set(...)` inside sampling: an exception aborts the whole call. -/
def write (r : Run α σ) (node param : Name) (v : Val α) : Except Err (Run α σ) :=
  match r.gs.set node param v false with
  | (s, none) => .ok { r with gs := s }
  | (_, some e) => .error e

/-- base_models.py:583-588: `np.array([value] * num_samples)` for several samples. Ragged
constants (numpy raises) are not represented. -/
def constValue (n : Nat) (v : Val α) : Val α := if n = 1 then v else .arr (List.replicate n v)

/-- base_models.py:861-883 `_build_inputs` (with the `kwargs` override). -/
def buildInputs (nd : PNode α σ) (s : GState α) (kwargs : Dict Name (Val α)) :
    Except Err (Dict Name (Val α)) :=
  nd.argNames.foldlM (fun (args : Dict Name (Val α)) key => do
    match kwargs.get? key with
    | some v => return args.set key v
    | none => return args.set key (← lookParam s nd.str key)) []

/-- base_models.py:904-905: store output `i` under name `i`. -/
def saveAll (nd : PNode α σ) (r : Run α σ) : List (Name × Val α) → Except Err (Run α σ)
  | [] => .ok r
  | (name, v) :: rest => do saveAll nd (← write r nd.str name v) rest

/-- base_models.py:885-905 `_save_results`. -/
def saveResults (nd : PNode α σ) (r : Run α σ) (results : Val α) : Except Err (Run α σ) :=
  match nd.outputs with
  | [o] => write r nd.str o results
  | outs => match results with
    | .arr rows =>
      if rows.length ≠ outs.length then .error .valueError
      else saveAll nd r (outs.zip rows)
    | _ => .error .typeError

/-- base_models.py:932-971 `FunctionNode.compute`; 522-538 the no-op of a plain node. -/
def compute (id : NodeId) (nd : PNode α σ) (r : Run α σ) (kwargs : Dict Name (Val α) := []) :
    Except Err (Run α σ) :=
  if nd.isFunc then
    match nd.body with
    | none => .error .valueError
    | some f => do
      let args ← buildInputs nd r.gs kwargs
      match f r.world r.gs.numSamples args with
      | (_, .error e) => .error e
      | (w, .ok results) =>
        saveResults nd { r with world := w, calls := r.calls ++ [(id, args, results)] } results
  else .ok r

/-- base_models.py:579-580: sample the dependency first, if there is one. -/
def visitDep (rec : NodeId → Run α σ → Except Err (Run α σ)) (id : NodeId) (src : Src α)
    (r : Run α σ) : Except Err (Run α σ) :=
  match src.dep with
  | some d => if d ≠ id then rec d r else .ok r
  | none => .ok r

/-- base_models.py:577-605, one iteration of the loop over the setters. `rec` is the recursive
call on the dependency; the flag is `any_compute`. -/
def stepSetter (H : Heap α σ) (rec : NodeId → Run α σ → Except Err (Run α σ)) (id : NodeId)
    (nd : PNode α σ) (acc : Run α σ × Bool) (q : Name × Setter α) : Except Err (Run α σ × Bool) := do
  let r ← visitDep rec id q.2.src acc.1
  match q.2.src with
  | .const v => return (← write r nd.str q.1 (constValue r.gs.numSamples v), acc.2)
  | .modelParam d p =>
    match H[d]? with
    | none => .error .attributeError
    | some dn => return (← write r nd.str q.1 (← lookParam r.gs dn.str p), acc.2)
  | .funcNode d p =>
    match H[d]? with
    | none => .error .attributeError
    | some dn => return (← write r nd.str q.1 (← lookParam r.gs dn.str p), acc.2)
  | .computeOut _ => return (r, true)
  | .undefined => .error .valueError

/-- base_models.py:540-610 `_sample_helper`. -/
def sampleNode (H : Heap α σ) : Nat → NodeId → Run α σ → Except Err (Run α σ)
  | 0, _, _ => .error .recursion
  | fuel + 1, id, r =>
    match H[id]? with
    | none => .error .attributeError
    | some nd =>
      match r.seen.get? nd.str with
      | some j => if j ≠ id then .error .valueError else .ok r
      | none => do
        let (r, any) ← nd.setters.foldlM (stepSetter H (sampleNode H fuel) id nd)
          ({ r with seen := r.seen.set nd.str id }, false)
        if any then compute id nd r else return r

/-- base_models.py:650-653 and multi_object_model.py:149-152: sample a list of roots
(`[self]`, or `objects ++ [self]`). -/
def sampleRoots (H : Heap α σ) (roots : List NodeId) (r : Run α σ) : Except Err (Run α σ) :=
  roots.foldlM (fun r id => sampleNode H (H.length + 1) id r) r

/-- base_models.py:647-648: the given arguments are merged as fixed parameters. -/
def applyGiven (s0 : GState α) : Option (GState.UpdateArg α) → Except Err (GState α)
  | none => .ok s0
  | some g => match s0.update g true with
    | (s, none) => .ok s
    | (_, some e) => .error e

/-- base_models.py:612-653 `sample_parameters` (positions already set). -/
def sampleFrom (H : Heap α σ) (roots : List NodeId) (given : Option (GState.UpdateArg α))
    (n : Int) (w : σ) : Except Err (Run α σ) := do
  let s0 : GState α ← GState.init n
  let s1 ← applyGiven s0 given
  sampleRoots H roots { gs := s1, world := w, seen := [], calls := [] }

/-- base_models.py:612-653 / multi_object_model.py:115-154 `sample_parameters`: positions are set
only when the root's own position is `None`. `objects` is empty for ordinary nodes. -/
def sampleParameters (H : Heap α σ) (root : NodeId) (objects : List NodeId)
    (given : Option (GState.UpdateArg α)) (n : Int) (w : σ) : Except Err (Heap α σ × Run α σ) := do
  match H[root]? with
  | none => .error .attributeError
  | some nd =>
    let H' ← if nd.pos = none then setPositions H (root :: objects) else .ok H
    return (H', ← sampleFrom H' (objects ++ [root]) given n w)

end Heap
end LCL
