import Verif.Model.Nodes

/-!
# Model of the graph-building API of `base_models.py`

`add_parameter`, `set_parameter`, `set_allow_gradient`, `FunctionNode.__init__` and the creation of
nodes, acting on the heap. The heap component of a result is the heap after the call even when it
raises.

Simplifications:
* a constructor that raises returns no object: the half-built object is garbage and is dropped from
  the heap;
* `FunctionNode(value, **kwargs)` inside `set_parameter` is reached with arguments whose own values
  are added *without* further `kwargs` (base_models.py:831-833), so the recursion
  `set_parameter → FunctionNode → add_parameter → set_parameter` has depth two and is unrolled:
  `setParameter0` is `set_parameter` without `kwargs`, `setParameter` the general one;
* `kwargs` never contain the keywords of the signatures (`name`, `value`, `func`, `node_label`,
  `outputs`, `fixed_params`, `allow_gradient`), which Python binds differently or rejects;
* `fixed_params` (a partial application) is part of the function body;
* values are the ones of `PyVal`; `set_as_constant`'s own check for callables is unreachable.
-/

namespace LCL

/-- What a callable computes. -/
abbrev Body (α σ : Type) := σ → Nat → Dict Name (Val α) → σ × Except Err (Val α)

/-- Kinds of Python values `set_parameter` distinguishes (base_models.py:402-438):
a plain value (`None` included), a getter `node.param` of a node (or any bound method of a node,
`param` being its name), any other callable, or a node object. -/
inductive PyVal (α σ : Type)
  | const (v : Val α)
  | method (parent : NodeId) (name : Name)
  | func (fname : Name) (body : Body α σ)
  | node (id : NodeId)

/-- base_models.py:150, 837: `"function_node_result"`. -/
def resultName : Name := "function_node_result".toList

/-- The attribute names every `FunctionNode` object has before any parameter is added
(methods and instance attributes of base_models.py:169-1002). -/
def funcAttrs : List Name :=
  ["func", "setters", "node_label", "node_pos", "node_string", "arg_names", "set_graph_positions",
   "list_params", "has_valid_param", "get_param", "get_local_params", "set_parameter",
   "set_allow_gradient", "add_parameter", "compute", "sample_parameters", "build_dependency_graph",
   "build_pytree", "generate", "_update_node_string", "_sample_helper", "_dependency_graph_helper",
   "_non_func", "_build_inputs", "_save_results"].map String.toList

namespace Heap
variable {α σ : Type}

/-- Replace one node. -/
def modifyNode (H : Heap α σ) (id : NodeId) (f : PNode α σ → PNode α σ) : Heap α σ :=
  List.modify H id f

/-- base_models.py:203-210 (and 814-827): a fresh object, with its temporary name. -/
def freshNode (cls : Name) (label : Option Name) (isFunc : Bool) (funcName : Option Name)
    (body : Option (Body α σ)) (attrs : List Name) : PNode α σ :=
  PNode.updateString
    { cls := cls, label := label, isFunc := isFunc, funcName := funcName, body := body,
      attrs := attrs, pos := none, str := [], setters := [], argNames := [], outputs := [] }

/-- base_models.py:387-389 `self.node_pos = None`. -/
def clearPos (H : Heap α σ) (id : NodeId) : Heap α σ := H.modifyNode id fun n => { n with pos := none }

/-- `self.setters[name].set_as_…(…)`: the source is replaced and `allow_gradient` with it
(base_models.py:113-116, 129-132, 145-148). -/
def putSource (H : Heap α σ) (id : NodeId) (name : Name) (st : Setter α) : Heap α σ :=
  H.modifyNode id fun n => { n with setters := n.setters.set name st }

/-- base_models.py:400-438 once the value is determined; `mk` builds the function node wrapping a
plain callable (line 421) and returns the new heap and its identity, or an error. -/
def setSource (mk : Heap α σ → Name → Body α σ → Except Err (Heap α σ × NodeId)) (H : Heap α σ)
    (id : NodeId) (name : Name) (value : PyVal α σ) : Heap α σ × Option Err :=
  match value with
  | .const v => (H.putSource id name ⟨.const v, true⟩, none)
  | .method parent m =>
    match H[parent]? with
    | none => (H, some .attributeError)
    | some pn => if pn.setters.has m then (H.putSource id name ⟨.modelParam parent m, false⟩, none)
        else (H, some .valueError)
  | .func fname body =>
    match mk H fname body with
    | .error e => (H, some e)
    | .ok (H', new) => (H'.putSource id name ⟨.funcNode new resultName, false⟩, none)
  | .node v =>
    match H[v]? with
    | none => (H, some .attributeError)
    | some vn =>
      if vn.isFunc then
        (H.putSource id name ⟨.funcNode v (if name ∈ vn.outputs then name else resultName), false⟩, none)
      else if v = id then (H, some .valueError)
      else if vn.setters.has name then (H.putSource id name ⟨.modelParam v name, false⟩, none)
      else (H, some .valueError)

/-- base_models.py:387-438 `set_parameter`, relative to `mk`. -/
def setWith (mk : Heap α σ → Name → Body α σ → Except Err (Heap α σ × NodeId)) (H : Heap α σ)
    (id : NodeId) (name : Name) (value : PyVal α σ) : Heap α σ × Option Err :=
  let H := H.clearPos id
  match H[id]? with
  | none => (H, some .attributeError)
  | some nd => if nd.setters.has name then H.setSource mk id name value else (H, some .keyError)

/-- base_models.py:501-503. -/
def overrideGradient (H : Heap α σ) (id : NodeId) (name : Name) : Option Bool → Heap α σ
  | none => H
  | some g => H.modifyNode id fun n =>
      { n with setters := match n.setters.get? name with
          | some st => n.setters.set name { st with allowGradient := g }
          | none => n.setters }

/-- base_models.py:482-520 `add_parameter`, relative to `mk`. The getter becomes an attribute of
the object (line 520). -/
def addWith (mk : Heap α σ → Name → Body α σ → Except Err (Heap α σ × NodeId)) (H : Heap α σ)
    (id : NodeId) (name : Name) (value : PyVal α σ) (gradient : Option Bool) :
    Heap α σ × Option Err :=
  match H[id]? with
  | none => (H, some .attributeError)
  | some nd =>
    if name ∈ nd.attrs ∧ nd.setters.has name = false then (H, some .keyError)
    else if nd.setters.has name then (H, some .keyError)
    else
      let H1 := H.putSource id name ⟨.undefined, false⟩
      match H1.setWith mk id name value with
      | (H2, some e) => (H2, some e)
      | (H2, none) =>
        ((H2.overrideGradient id name gradient).modifyNode id
          fun n => { n with attrs := n.attrs ++ [name] }, none)

/-- base_models.py:839-844: the output parameters of a function node. -/
def addOutputs (H : Heap α σ) (id : NodeId) : List Name → Heap α σ × Option Err
  | [] => (H, none)
  | o :: rest =>
    match H.addWith (fun _ _ _ => .error .typeError) id o (.const .none) none with
    | (H, some e) => (H, some e)
    | (H, none) => (H.putSource id o ⟨.computeOut o, false⟩).addOutputs id rest

/-- base_models.py:830-833: the input parameters of a function node. -/
def addArgs (mk : Heap α σ → Name → Body α σ → Except Err (Heap α σ × NodeId)) (H : Heap α σ)
    (id : NodeId) : List (Name × PyVal α σ) → Heap α σ × Option Err
  | [] => (H, none)
  | (k, v) :: rest =>
    match (H.modifyNode id fun n => { n with argNames := n.argNames ++ [k] }).addWith mk id k v none with
    | (H, some e) => (H, some e)
    | (H, none) => H.addArgs mk id rest

/-- base_models.py:835-838: the declared outputs. -/
def outputNames (outputs : List Name) : List Name := if outputs = [] then [resultName] else outputs

/-- base_models.py:814-844 `FunctionNode.__init__`, relative to `mk` (used when one of its
arguments is itself a plain callable). -/
def newFunctionWith (mk : Heap α σ → Name → Body α σ → Except Err (Heap α σ × NodeId))
    (H : Heap α σ) (cls : Name) (label : Option Name) (funcName : Option Name)
    (body : Option (Body α σ)) (attrs : List Name) (outputs : List Name)
    (args : List (Name × PyVal α σ)) : Except Err (Heap α σ × NodeId) :=
  let id := H.length
  match (H ++ [freshNode cls label true funcName body attrs]).addArgs mk id args with
  | (_, some e) => .error e
  | (H, none) =>
    match (H.modifyNode id fun n => { n with outputs := outputNames outputs }).addOutputs id
        (outputNames outputs) with
    | (_, some e) => .error e
    | (H, none) => .ok (H, id)

/-- The function node wrapping a callable that is the value of an *argument* (no `kwargs`). -/
def wrap0 (H : Heap α σ) (fname : Name) (body : Body α σ) : Except Err (Heap α σ × NodeId) :=
  newFunctionWith (fun _ _ _ => .error .typeError) H "FunctionNode".toList none (some fname)
    (some body) funcAttrs [] []

/-- The function node wrapping a callable given to `set_parameter(…, **kwargs)`
(base_models.py:421). -/
def wrap (kwargs : List (Name × PyVal α σ)) (H : Heap α σ) (fname : Name) (body : Body α σ) :
    Except Err (Heap α σ × NodeId) :=
  newFunctionWith wrap0 H "FunctionNode".toList none (some fname) (some body) funcAttrs [] kwargs

/-- base_models.py:398-400: the value, or else the keyword argument of the same name. -/
def pickValue (name : Name) (value : PyVal α σ) (kwargs : List (Name × PyVal α σ)) : PyVal α σ :=
  match value with
  | .const .none => (Dict.get? kwargs name).getD value
  | v => v

/-- base_models.py:356-438 `set_parameter`. -/
def setParameter (H : Heap α σ) (id : NodeId) (name : Name) (value : PyVal α σ)
    (kwargs : List (Name × PyVal α σ)) : Heap α σ × Option Err :=
  H.setWith (wrap kwargs) id name (pickValue name value kwargs)

/-- base_models.py:452-520 `add_parameter`. -/
def addParameter (H : Heap α σ) (id : NodeId) (name : Name) (value : PyVal α σ)
    (gradient : Option Bool) (kwargs : List (Name × PyVal α σ)) : Heap α σ × Option Err :=
  H.addWith (wrap kwargs) id name (pickValue name value kwargs) gradient

/-- base_models.py:440-450 `set_allow_gradient`. -/
def setAllowGradient (H : Heap α σ) (id : NodeId) (name : Name) (g : Bool) : Heap α σ × Option Err :=
  match H[id]? with
  | none => (H, some .attributeError)
  | some nd => if nd.setters.has name then (H.overrideGradient id name (some g), none)
      else (H, some .keyError)

/-- base_models.py:203-210 `ParameterizedNode(node_label=…)`, for a class whose objects have the
attributes `attrs`. -/
def newNode (H : Heap α σ) (cls : Name) (label : Option Name) (attrs : List Name) : Heap α σ :=
  H ++ [freshNode cls label false none none attrs]

/-- base_models.py:814-844 `FunctionNode(func, …, **args)` called by the user. -/
def newFunction (H : Heap α σ) (cls : Name) (label : Option Name) (funcName : Option Name)
    (body : Option (Body α σ)) (attrs : List Name) (outputs : List Name)
    (args : List (Name × PyVal α σ)) : Heap α σ × Option Err :=
  match newFunctionWith wrap0 H cls label funcName body attrs outputs args with
  | .error e => (H, some e)
  | .ok (H', _) => (H', none)

end Heap

/-- One graph-building call. -/
inductive ApiOp (α σ : Type)
  | newNode (cls : Name) (label : Option Name) (attrs : List Name)
  | newFunction (cls : Name) (label funcName : Option Name) (body : Option (Body α σ))
      (attrs outputs : List Name) (args : List (Name × PyVal α σ))
  | addParameter (id : NodeId) (name : Name) (value : PyVal α σ) (gradient : Option Bool)
      (kwargs : List (Name × PyVal α σ))
  | setParameter (id : NodeId) (name : Name) (value : PyVal α σ) (kwargs : List (Name × PyVal α σ))
  | setAllowGradient (id : NodeId) (name : Name) (g : Bool)
  | setGraphPositions (root : NodeId) (objects : List NodeId)

namespace Heap
variable {α σ : Type}

/-- The heap after one call (a raised exception is caught by the caller). -/
def apply (H : Heap α σ) : ApiOp α σ → Heap α σ × Option Err
  | .newNode c l a => (H.newNode c l a, none)
  | .newFunction c l f b a o k => H.newFunction c l f b a o k
  | .addParameter i n v g k => H.addParameter i n v g k
  | .setParameter i n v k => H.setParameter i n v k
  | .setAllowGradient i n g => H.setAllowGradient i n g
  | .setGraphPositions r o => match H.setPositions (r :: o) with
    | .ok H' => (H', none)
    | .error e => (H, some e)

/-- The heap after a history of calls. -/
def applyAll (H : Heap α σ) (ops : List (ApiOp α σ)) : Heap α σ :=
  ops.foldl (fun H op => (H.apply op).1) H

end Heap
end LCL
