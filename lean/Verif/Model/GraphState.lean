import Verif.Base.Py

/-!
# Model of `src/lightcurvelynx/graph_state.py`

Values (`Val`) are what a cell can hold: `None`, a scalar, or an array / list of cells.
Simplifications, for the whole file:
* `force_copy` and array aliasing are not represented here (values are immutable); `Model/GraphHeap` adds them and C128 relates the two;
* 0-dimensional arrays, tuples and dictionaries as *values* are not represented;
* a Python `set` is a duplicate-free list, its iteration order is an explicit parameter
  wherever it is observable;
* numpy dtype coercion is not represented.
-/

namespace LCL

/-- What one parameter holds (graph_state.py:32-52, docstring of `GraphState`). -/
inductive Val (α : Type)
  | none
  | scalar (a : α)
  | arr (rows : List (Val α))

/-- graph_state.py:53-61 — the four attributes of a `GraphState`. -/
structure GState (α : Type) where
  numSamples : Nat
  numParams : Nat
  states : Dict Name (Dict Name (Val α))
  fixed : Dict Name (List Name)

namespace GState
variable {α : Type}

/-- graph_state.py:53-61 `__init__`. -/
def init (n : Int) : Except Err (GState α) :=
  if n < 1 then .error .valueError
  else .ok { numSamples := n.toNat, numParams := 0, states := [], fixed := [] }

/-- graph_state.py:63-64 `__len__`. -/
def len (s : GState α) : Nat := s.numParams

/-- graph_state.py:198-213 `extended_param_name`. -/
def extendedName (node param : Name) : Name := node ++ '.' :: param

/-- graph_state.py:422-436, the value-normalising part of `set`:
one sample stores the value as is, a scalar is repeated, a wrong length raises
(`len(None)` raises `TypeError`). -/
def normalise (n : Nat) (v : Val α) : Except Err (Val α) :=
  if n = 1 then .ok v
  else match v with
    | .scalar a => .ok (.arr (List.replicate n (.scalar a)))
    | .none => .error .typeError
    | .arr l => if l.length ≠ n then .error .valueError else .ok (.arr l)

/-- graph_state.py:411-413, first part of `set`: register a new node. -/
def register (s : GState α) (node : Name) : GState α :=
  if s.states.has node then s
  else { s with states := s.states.set node [], fixed := s.fixed.set node [] }

/-- graph_state.py:414-415, second part of `set`: count a new parameter. -/
def countVar (s : GState α) (node var : Name) : GState α :=
  if ((s.states.get? node).getD []).has var then s else { s with numParams := s.numParams + 1 }

/-- graph_state.py:386-440 `set`. The state component of the result is the state after the
call even when it raises (Python keeps the mutations made before the exception). -/
def set (s : GState α) (node var : Name) (value : Val α) (fixed : Bool := false) :
    GState α × Option Err :=
  if hasDot node || hasDot var then (s, some .valueError)
  else
    let s1 := s.register node
    let vars := (s1.states.get? node).getD []
    let s2 := s1.countVar node var
    match s2.fixed.get? node with
    | none => (s2, some .keyError)
    | some fx =>
      if var ∈ fx then (s2, none)
      else match normalise s2.numSamples value with
        | .error e => (s2, some e)
        | .ok v =>
          let s3 := { s2 with states := s2.states.set node (vars.set var v) }
          if fixed then ({ s3 with fixed := s3.fixed.set node (fx ++ [var]) }, none)
          else (s3, none)

/-- graph_state.py:481-483, the inner loop of `update` over one node's parameters. -/
def setAll (s : GState α) (node : Name) (fixed : Bool) :
    List (Name × Val α) → GState α × Option Err
  | [] => (s, none)
  | (var, v) :: rest =>
    match s.set node var v fixed with
    | (s', none) => setAll s' node fixed rest
    | (s', some e) => (s', some e)

/-- graph_state.py:481-483, the outer loop of `update`. -/
def setNested (s : GState α) (fixed : Bool) :
    List (Name × Dict Name (Val α)) → GState α × Option Err
  | [] => (s, none)
  | (node, vars) :: rest =>
    match s.setAll node fixed vars with
    | (s', none) => setNested s' fixed rest
    | (s', some e) => (s', some e)

/-- The two kinds of argument of `update` (graph_state.py:442-466). -/
inductive UpdateArg (α : Type)
  | graph (g : GState α)
  | nested (d : Dict Name (Dict Name (Val α)))

/-- graph_state.py:442-483 `update`. -/
def update (s : GState α) (inputs : UpdateArg α) (allFixed : Bool := false) :
    GState α × Option Err :=
  match inputs with
  | .graph g =>
    if s.numSamples ≠ g.numSamples ∧ g.numSamples ≠ 1 then (s, some .valueError)
    else s.setNested allFixed g.states
  | .nested d => s.setNested allFixed d

/-- Result of `state[key]`: a node's dictionary, a value, or Python's `None`
(the fall-through at the end of `__getitem__`). -/
inductive Item (α : Type)
  | node (d : Dict Name (Val α))
  | value (v : Val α)
  | pyNone

/-- graph_state.py:144-174 `__getitem__`. -/
def getItem (s : GState α) (key : Name) : Except Err (Item α) :=
  match s.states.get? key with
  | some d => .ok (.node d)
  | none =>
    if hasDot key then
      match splitDot key with
      | [a, b] =>
        match s.states.get? a with
        | none => .error .keyError
        | some d => match d.get? b with
          | none => .error .keyError
          | some v => .ok (.value v)
      | _ => .error .keyError
    else match s.states with
      | [(_, d)] => match d.get? key with
        | some v => .ok (.value v)
        | none => .ok .pyNone
      | _ => .error .keyError

/-- graph_state.py:78-109 `__contains__`. `key in state` is the truth value of the result:
`some b` for an explicit return, `none` for the fall-through `None` (which is falsy). -/
def contains (s : GState α) (key : Name) : Except Err (Option Bool) :=
  if s.states.has key then .ok (some true)
  else if hasDot key then
    match splitDot key with
    | [a, b] =>
      match s.states.get? a with
      | none => .ok (some false)
      | some d => .ok (some (d.has b))
    | _ => .error .keyError
  else match s.states with
    | [(_, d)] => if d.has key then .ok (some true) else .ok none
    | _ => .ok (some false)

/-- graph_state.py:176-195 `copy`. -/
def copy (s : GState α) : GState α :=
  { numSamples := s.numSamples
    numParams := s.numParams
    states := s.states.map fun (n, vars) => (n, vars.map fun (k, v) => (k, v))
    fixed := s.fixed.map fun (n, f) => (n, f) }

/-- graph_state.py:344-356 `get_all_params_names`. -/
def allNames (s : GState α) : List Name :=
  s.states.flatMap fun (n, vars) => vars.map fun (k, _) => extendedName n k

/-- `value[i]` on an array (IndexError outside; indexing a non-array raises TypeError). -/
def row (v : Val α) (i : Nat) : Except Err (Val α) :=
  match v with
  | .arr l => match l[i]? with
    | some x => .ok x
    | none => .error .indexError
  | _ => .error .typeError

/-- `{k: value[i] for k, value in vars.items()}`. -/
def rowDict (vars : Dict Name (Val α)) (i : Nat) : Except Err (Dict Name (Val α)) :=
  vars.mapM fun (k, v) => do return (k, ← row v i)

/-- graph_state.py:358-384 `get_node_state`. -/
def getNodeState (s : GState α) (node : Name) (i : Int) : Except Err (Dict Name (Val α)) :=
  match s.states.get? node with
  | none => .error .keyError
  | some vars =>
    if i < 0 ∨ i ≥ s.numSamples then .error .valueError
    else if s.numSamples = 1 then .ok vars
    else rowDict vars i.toNat

/-- graph_state.py:485-508 `extract_single_sample`. The new state's `fixed_vars` stays empty. -/
def extractSample (s : GState α) (i : Int) : Except Err (GState α) :=
  if i < 0 ∨ i ≥ s.numSamples then .error .valueError
  else do
    let st ← s.states.mapM fun (n, vars) => do
      let d ← if s.numSamples = 1 then pure vars else rowDict vars i.toNat
      return (n, d)
    return { numSamples := 1, numParams := s.numParams, states := st, fixed := [] }

/-- graph_state.py:69-76 `__iter__` / `_iterate`: the samples in order. -/
def iterate (s : GState α) : Except Err (List (GState α)) :=
  (List.range s.numSamples).mapM fun i => s.extractSample (i : Nat)

/-- One value of the dictionary given to `from_dict` (graph_state.py:254-272). -/
inductive Entry (α : Type)
  | val (v : Val α)
  | nested (d : Dict Name (Val α))

/-- graph_state.py:274-284, the loop of `from_dict`. A dotted key whose value is itself a
dictionary is not modelled faithfully (reported as `typeError`). -/
def fromDictLoop (s : GState α) : List (Name × Entry α) → Except Err (GState α)
  | [] => .ok s
  | (id1, e) :: rest =>
    if hasDot id1 then
      match splitDot id1, e with
      | [node, param], .val v =>
        match s.set node param v false with
        | (s', none) => fromDictLoop s' rest
        | (_, some err) => .error err
      | [_, _], .nested _ => .error .typeError
      | _, _ => .error .valueError
    else match e with
      | .nested d =>
        match s.setAll id1 false d with
        | (s', none) => fromDictLoop s' rest
        | (_, some err) => .error err
      | .val _ => .error .valueError

/-- graph_state.py:253-285 `from_dict`. -/
def fromDict (data : Dict Name (Entry α)) (n : Int) : Except Err (GState α) := do
  fromDictLoop (← init n) data

/-- graph_state.py:598-615 `to_dict`. For more than one sample the array is turned into a
list, which is the same `Val` here. -/
def toDict (s : GState α) : Dict Name (Val α) :=
  s.states.foldl (fun acc (n, vars) =>
    vars.foldl (fun acc (k, v) => acc.set (extendedName n k) v) acc) []

/-- An astropy `Table`: named columns, all with `rows` entries. -/
structure Tbl (α : Type) where
  cols : Dict Name (List (Val α))
  rows : Nat

/-- graph_state.py:592-595, adding one column (arrays only). -/
def addCol (acc : Dict Name (List (Val α))) (node param : Name) :
    Val α → Except Err (Dict Name (List (Val α)))
  | .arr l => .ok (acc.set (extendedName node param) l)
  | _ => .error .typeError

/-- graph_state.py:582-596 `to_table`. Only arrays are modelled as columns: adding a scalar
as first column of an empty table is left to astropy (`typeError` here). -/
def toTable (s : GState α) : Except Err (Tbl α) := do
  let cols : Dict Name (List (Val α)) ← s.states.foldlM (fun acc q =>
    q.2.foldlM (fun acc r => addCol acc q.1 r.1 r.2) acc) []
  return { cols := cols, rows := ((Dict.values cols).head?.map List.length).getD 0 }

/-- graph_state.py:227-238, loop of `from_table`. -/
def fromTableLoop (rows : Nat) (s : GState α) :
    List (Name × List (Val α)) → Except Err (GState α)
  | [] => .ok s
  | (col, data) :: rest =>
    match splitDot col with
    | [a, b] =>
      let v : Except Err (Val α) :=
        if rows = 1 then (match data with | [] => .error .indexError | x :: _ => .ok x)
        else .ok (.arr data)
      match v with
      | .error e => .error e
      | .ok v =>
        match s.set a b v false with
        | (s', none) => fromTableLoop rows s' rest
        | (_, some err) => .error err
    | _ => .error .valueError

/-- graph_state.py:215-239 `from_table`. -/
def fromTable (t : Tbl α) : Except Err (GState α) := do
  fromTableLoop t.rows (← init t.rows) t.cols

/-- `np.atleast_1d`: the rows of an array, or the value alone. -/
def atLeast1d : Val α → List (Val α)
  | .arr l => l
  | v => [v]

/-- One element of the list given to `from_list` (graph_state.py:310-314). -/
inductive ListElem (α : Type)
  | graph (g : GState α)
  | dict (d : Dict Name (Entry α))
  | other

/-- graph_state.py:305-328: convert to states, check that parameter sets agree. -/
def fromListCollect (names : Option (List Name)) :
    List (ListElem α) → Except Err (List Name × List (GState α))
  | [] => .ok (names.getD [], [])
  | e :: rest => do
    let cur ← match e with
      | .graph g => .ok g
      | .dict d => fromDict d 1
      | .other => .error .typeError
    let curNames := cur.allNames
    let names' ← match names with
      | none => .ok curNames
      | some ns =>
        if (ns.all fun x => curNames.contains x) && (curNames.all fun x => ns.contains x)
        then .ok ns else .error .valueError
    let (ns, gs) ← fromListCollect (some names') rest
    return (ns, cur :: gs)

/-- graph_state.py:339: `np.atleast_1d(current[full_name])`. `current[full_name]`
is `__getitem__`; its non-value results are reported as `typeError`. -/
def partOf (full : Name) (g : GState α) : Except Err (List (Val α)) :=
  match g.getItem full with
  | .ok (.value v) => .ok (atLeast1d v)
  | .ok _ => .error .typeError
  | .error e => .error e

/-- graph_state.py:337-340: the concatenated column of one parameter. -/
def concatColumn (gs : List (GState α)) (full : Name) : Except Err (List (Val α)) := do
  return (← gs.mapM (partOf full)).flatten

/-- graph_state.py:332-341: fill the result, in some order of the name set. -/
def fromListFill (gs : List (GState α)) (s : GState α) : List Name → Except Err (GState α)
  | [] => .ok s
  | full :: rest =>
    match splitDot full with
    | [node, param] => do
      let values ← concatColumn gs full
      match s.set node param (.arr values) false with
      | (s', none) => fromListFill gs s' rest
      | (_, some err) => .error err
    | _ => .error .valueError

/-- graph_state.py:287-342 `from_list`. `order` is the iteration order of the Python set of
names (any permutation). With a total of one sample the stored value is the length-one array
(the code concatenates `atleast_1d` values and stores that). -/
def fromList (order : List Name → List Name) (data : List (ListElem α)) :
    Except Err (GState α) := do
  if data.length = 0 then .error .valueError
  else
    let (names, gs) ← fromListCollect none data
    let total : Nat := (gs.map (·.numSamples)).sum
    fromListFill gs (← init total) (order names)

/-- graph_state.py:534-542, first loop of `extract_parameters`: full names are looked up,
short names are collected. -/
def extractFull (s : GState α) : List Name → Dict Name (Val α) → List Name →
    Except Err (Dict Name (Val α) × List Name)
  | [], results, singles => .ok (results, singles)
  | cur :: rest, results, singles =>
    if hasDot cur then
      match splitDot cur with
      | [node, param] =>
        match (s.states.get? node).bind (·.get? param) with
        | some v => extractFull s rest (results.set cur v) singles
        | none => .error .keyError
      | _ => .error .valueError
    else extractFull s rest results (if cur ∈ singles then singles else singles ++ [cur])

/-- State of the second loop of `extract_parameters`: `results` and `first_seen_node`. -/
abbrev ExtractAcc (α : Type) := Dict Name (Val α) × Dict Name Name

/-- graph_state.py:551-573, one iteration of the second loop. -/
def extractStep (singles : List Name) (acc : ExtractAcc α) (node param : Name) (v : Val α) :
    ExtractAcc α :=
  if param ∈ singles then
    match acc.2.get? param with
    | some firstNode =>
      let res1 := match acc.1.get? param with
        | some v0 => (acc.1.set (extendedName firstNode param) v0).erase param
        | none => acc.1
      (res1.set (extendedName node param) v, acc.2)
    | none => (acc.1.set param v, acc.2.set param node)
  else acc

/-- graph_state.py:550-573, second loop of `extract_parameters`. -/
def extractLoop (singles : List Name) (acc : ExtractAcc α)
    (states : Dict Name (Dict Name (Val α))) : ExtractAcc α :=
  states.foldl (fun acc (n, vars) =>
    vars.foldl (fun acc (k, v) => extractStep singles acc n k v) acc) acc

/-- graph_state.py:510-580 `extract_parameters` (a single string argument is the one-element
list). -/
def extractParameters (s : GState α) (params : List Name) : Except Err (Dict Name (Val α)) := do
  let (results, singles) ← s.extractFull params [] []
  if singles.length = 0 then return results
  else
    let (results, first) := extractLoop singles (results, []) s.states
    if singles.all fun p => first.has p then return results else .error .keyError

end GState

/-- graph_state.py:749-754, inner loop of `transpose_dict_of_list`: distribute one column. -/
def transposeAdd {κ ν : Type} [DecidableEq κ] (key : κ) (values : List ν)
    (out : List (Dict κ ν)) : List (Dict κ ν) :=
  List.zipWith (fun v d => Dict.set d key v) values out

/-- graph_state.py:750-755, outer loop. -/
def transposeLoop {κ ν : Type} [DecidableEq κ] (n : Int) :
    List (κ × List ν) → List (Dict κ ν) → Except Err (List (Dict κ ν))
  | [], out => .ok out
  | (key, values) :: rest, out =>
    if (values.length : Int) ≠ n then .error .valueError
    else transposeLoop n rest (transposeAdd key values out)

/-- graph_state.py:725-755 `transpose_dict_of_list`. -/
def transposeDictOfList {κ ν : Type} [DecidableEq κ] (d : Dict κ (List ν)) (n : Int) :
    Except Err (List (Dict κ ν)) :=
  if n < 1 then .error .valueError
  else transposeLoop n d (List.replicate n.toNat [])

end LCL
