import Verif.Model.GraphState

/-!
# Arrays and references in `graph_state.py`

`Model/GraphState` treats arrays as values. Here they are objects: the heap holds the contents of every array and Python list, a parameter refers to one of
them, and arrays can be written in place. One-dimensional arrays and lists of numbers only; a slice of an array (`values[a:b]`) is a view of it.
-/

namespace LCL.GraphHeap
open LCL

variable {α : Type}

/-- The contents of all arrays and lists, by reference. -/
abbrev Heap (α : Type) := List (List α)

/-- What a variable or a parameter holds: nothing, a number, a view of an array, a Python list. -/
inductive HVal (α : Type)
  | none
  | scalar (a : α)
  | arr (ref start len : Nat)
  | list (ref : Nat)
deriving DecidableEq

/-- The contents of an object. -/
def Heap.cells (h : Heap α) (r : Nat) : List α := (h[r]?).getD []

/-- The elements of a view of an array. -/
def Heap.view (h : Heap α) (ref start len : Nat) : List α := ((h.cells ref).drop start).take len

/-- A new array (`np.array(...)`). -/
def alloc (h : Heap α) (l : List α) : Heap α × HVal α := (h ++ [l], .arr h.length 0 l.length)

/-- graph_state.py:53-61: the attributes of a `GraphState`, with references. -/
structure HState (α : Type) where
  numSamples : Nat
  numParams : Nat
  states : Dict Name (Dict Name (HVal α))
  fixed : Dict Name (List Name)

/-- graph_state.py:422-436, the value-storing part of `set`: one sample keeps the object itself, `np.asarray` keeps an array and makes a new one of a list,
`force_copy` makes a new one in any case. -/
def normalise (h : Heap α) (n : Nat) (v : HVal α) (force : Bool) : Except Err (Heap α × HVal α) :=
  if n = 1 then .ok (h, v)
  else match v with
    | .scalar a => .ok (alloc h (List.replicate n a))
    | .none => .error .typeError
    | .arr r s l => if (h.view r s l).length ≠ n then .error .valueError
        else if force then .ok (alloc h (h.view r s l)) else .ok (h, .arr r s l)
    | .list r => if (h.cells r).length ≠ n then .error .valueError else .ok (alloc h (h.cells r))

/-- graph_state.py:411-413. -/
def register (s : HState α) (node : Name) : HState α :=
  if s.states.has node then s
  else { s with states := s.states.set node [], fixed := s.fixed.set node [] }

/-- graph_state.py:414-415. -/
def countVar (s : HState α) (node var : Name) : HState α :=
  if ((s.states.get? node).getD []).has var then s else { s with numParams := s.numParams + 1 }

/-- graph_state.py:386-440 `set`. -/
def set (h : Heap α) (s : HState α) (node var : Name) (value : HVal α) (force fixed : Bool) : Heap α × HState α × Option Err :=
  if hasDot node || hasDot var then (h, s, some .valueError)
  else
    let s1 := register s node
    let vars := (s1.states.get? node).getD []
    let s2 := countVar s1 node var
    match s2.fixed.get? node with
    | none => (h, s2, some .keyError)
    | some fx =>
      if var ∈ fx then (h, s2, none)
      else match normalise h s2.numSamples value force with
        | .error e => (h, s2, some e)
        | .ok (h', v) =>
          let s3 := { s2 with states := s2.states.set node (vars.set var v) }
          if fixed then (h', { s3 with fixed := s3.fixed.set node (fx ++ [var]) }, none)
          else (h', s3, none)

/-- graph_state.py:482-483, the inner loop of `update`. -/
def setAll (force fixed : Bool) (node : Name) : Heap α → HState α → List (Name × HVal α) → Heap α × HState α × Option Err
  | h, s, [] => (h, s, none)
  | h, s, (var, v) :: rest =>
    match set h s node var v force fixed with
    | (h', s', none) => setAll force fixed node h' s' rest
    | (h', s', some e) => (h', s', some e)

/-- graph_state.py:481-483, the outer loop of `update`. -/
def setNested (force fixed : Bool) : Heap α → HState α → List (Name × Dict Name (HVal α)) → Heap α × HState α × Option Err
  | h, s, [] => (h, s, none)
  | h, s, (node, vars) :: rest =>
    match setAll force fixed node h s vars with
    | (h', s', none) => setNested force fixed h' s' rest
    | (h', s', some e) => (h', s', some e)

/-- graph_state.py:442-483 `update` with a `GraphState`. -/
def update (h : Heap α) (s g : HState α) (force fixed : Bool) : Heap α × HState α × Option Err :=
  if s.numSamples ≠ g.numSamples ∧ g.numSamples ≠ 1 then (h, s, some .valueError)
  else setNested force fixed h s g.states

/-- graph_state.py:189-192: the copy of one value: the object itself for one sample, `var_value.copy()` otherwise. Numbers and None, which a state of several samples holds only after a direct write into its dictionary, are copied here without an error. -/
def copyVal (n : Nat) (h : Heap α) : HVal α → Heap α × HVal α
  | .arr r s l => if n = 1 then (h, .arr r s l) else alloc h (h.view r s l)
  | .list r => if n = 1 then (h, .list r) else (h ++ [h.cells r], .list h.length)
  | v => (h, v)

/-- graph_state.py:188-192. -/
def copyVars (n : Nat) : Heap α → Dict Name (HVal α) → Heap α × Dict Name (HVal α)
  | h, [] => (h, [])
  | h, (k, v) :: rest => ((copyVars n (copyVal n h v).1 rest).1, (k, (copyVal n h v).2) :: (copyVars n (copyVal n h v).1 rest).2)

/-- graph_state.py:186-192. -/
def copyNodes (n : Nat) : Heap α → Dict Name (Dict Name (HVal α)) → Heap α × Dict Name (Dict Name (HVal α))
  | h, [] => (h, [])
  | h, (k, d) :: rest => ((copyNodes n (copyVars n h d).1 rest).1, (k, (copyVars n h d).2) :: (copyNodes n (copyVars n h d).1 rest).2)

/-- graph_state.py:176-195 `copy`. -/
def copy (h : Heap α) (s : HState α) : Heap α × HState α :=
  ((copyNodes s.numSamples h s.states).1,
   { numSamples := s.numSamples, numParams := s.numParams, states := (copyNodes s.numSamples h s.states).2, fixed := s.fixed })

/-- `value[i]`: an element is a number. -/
def row (h : Heap α) (v : HVal α) (i : Nat) : Except Err (HVal α) :=
  match v with
  | .arr r s l => match (h.view r s l)[i]? with
    | some a => .ok (.scalar a)
    | none => .error .indexError
  | .list r => match (h.cells r)[i]? with
    | some a => .ok (.scalar a)
    | none => .error .indexError
  | _ => .error .typeError

/-- graph_state.py:503-507. -/
def rowDict (h : Heap α) (vars : Dict Name (HVal α)) (i : Nat) : Except Err (Dict Name (HVal α)) :=
  vars.mapM fun (k, v) => do return (k, ← row h v i)

/-- graph_state.py:485-508 `extract_single_sample`: for one sample the values are the same objects. -/
def extractSample (h : Heap α) (s : HState α) (i : Int) : Except Err (HState α) :=
  if i < 0 ∨ i ≥ s.numSamples then .error .valueError
  else do
    let st ← s.states.mapM fun (n, vars) => do
      let d ← if s.numSamples = 1 then pure vars else rowDict h vars i.toNat
      return (n, d)
    return { numSamples := 1, numParams := s.numParams, states := st, fixed := [] }

/-! ### A program that uses graph states and arrays -/

/-- math_nodes/given_sampler.py:64-82: a `GivenValueList`: its array and the next position. -/
structure Given where
  ref : Nat
  start : Nat
  len : Nat
  next : Nat

/-- The memory of a program: the arrays and lists, its graph states, its variables, its `GivenValueList` nodes. -/
structure World (α : Type) where
  heap : Heap α
  states : List (HState α)
  vars : List (HVal α)
  nodes : List Given

/-- One statement of a program. Results go into a new state, variable or node. -/
inductive Op (α : Type)
  /-- `np.array(l)` -/
  | array (l : List α)
  /-- a Python list -/
  | list (l : List α)
  /-- a number -/
  | num (a : α)
  /-- `vars[x][k] = a` -/
  | write (x k : Nat) (a : α)
  /-- `GraphState(n)` -/
  | new (n : Int)
  /-- `states[i].set(node, var, vars[x], force_copy, fixed)` -/
  | set (i : Nat) (node var : Name) (x : Nat) (force fixed : Bool)
  /-- `states[i].copy()` -/
  | copy (i : Nat)
  /-- `states[i].extract_single_sample(k)` -/
  | sample (i : Nat) (k : Int)
  /-- `states[i].update(states[j], force_copy, all_fixed)` -/
  | update (i j : Nat) (force fixed : Bool)
  /-- `states[i][node][var]` -/
  | get (i : Nat) (node var : Name)
  /-- `states[i][node][var] = vars[x]` (the dictionary of the node is the state's own) -/
  | assign (i : Nat) (node var : Name) (x : Nat)
  /-- `GivenValueList(vars[x])` -/
  | given (x : Nat)
  /-- `nodes[g].compute(states[i])`, the result saved as `node.var` -/
  | compute (g i : Nat) (node var : Name)
  /-- `nodes[g].reset()` -/
  | reset (g : Nat)

/-- Writing an element of an object. -/
def writeCell (h : Heap α) (r k : Nat) (a : α) : Heap α := List.set h r ((h.cells r).set k a)

/-- `value[k] = a`. -/
def write (h : Heap α) (v : HVal α) (k : Nat) (a : α) : Heap α × Option Err :=
  match v with
  | .arr r s l => if k < (h.view r s l).length then (writeCell h r (s + k) a, none) else (h, some .indexError)
  | .list r => if k < (h.cells r).length then (writeCell h r k a, none) else (h, some .indexError)
  | _ => (h, some .typeError)

/-- `np.asarray(values)` and the check of given_sampler.py:77-79 (a number has no length; a list becomes a new array). -/
def makeGiven (h : Heap α) (v : HVal α) : Heap α × Except Err Given :=
  match v with
  | .arr r s l => if (h.view r s l).length = 0 then (h, .error .valueError) else (h, .ok ⟨r, s, l, 0⟩)
  | .list r => if (h.cells r).length = 0 then (h ++ [h.cells r], .error .valueError) else (h ++ [h.cells r], .ok ⟨h.length, 0, (h.cells r).length, 0⟩)
  | _ => (h, .error .typeError)

/-- given_sampler.py:108-120: the value(s) `GivenValueList.compute` gives, with the node afterwards: several samples get a view of the node's array. -/
def giveNext (h : Heap α) (g : Given) (n : Nat) : Except Err (Given × HVal α) :=
  if n = 1 then
    match (h.view g.ref g.start g.len)[g.next]? with
    | none => .error .indexError
    | some a => .ok ({ g with next := g.next + 1 }, .scalar a)
  else if g.next + n > (h.view g.ref g.start g.len).length then .error .indexError
  else .ok ({ g with next := g.next + n }, .arr g.ref (g.start + g.next) n)

/-- Put back a state after an operation on it. -/
def World.put (W : World α) (i : Nat) (r : Heap α × HState α × Option Err) : World α × Option Err :=
  ({ W with heap := r.1, states := W.states.set i r.2.1 }, r.2.2)

/-- graph_state.py:144-174 and 160-161: `states[i][node][var]`. -/
def lookup (s : HState α) (node var : Name) : Option (HVal α) := (s.states.get? node).bind (·.get? var)

/-- One statement. A statement about a state, variable or node that does not exist raises NameError and does nothing. -/
def step (W : World α) : Op α → World α × Option Err
  | .array l => ({ W with heap := (alloc W.heap l).1, vars := W.vars ++ [(alloc W.heap l).2] }, none)
  | .list l => ({ W with heap := W.heap ++ [l], vars := W.vars ++ [.list W.heap.length] }, none)
  | .num a => ({ W with vars := W.vars ++ [.scalar a] }, none)
  | .write x k a => match W.vars[x]? with
    | none => (W, some .nameError)
    | some v => ({ W with heap := (write W.heap v k a).1 }, (write W.heap v k a).2)
  | .new n => if n < 1 then (W, some .valueError)
    else ({ W with states := W.states ++ [{ numSamples := n.toNat, numParams := 0, states := [], fixed := [] }] }, none)
  | .set i node var x force fixed => match W.states[i]?, W.vars[x]? with
    | some s, some v => W.put i (set W.heap s node var v force fixed)
    | _, _ => (W, some .nameError)
  | .copy i => match W.states[i]? with
    | none => (W, some .nameError)
    | some s => ({ W with heap := (copy W.heap s).1, states := W.states ++ [(copy W.heap s).2] }, none)
  | .sample i k => match W.states[i]? with
    | none => (W, some .nameError)
    | some s => match extractSample W.heap s k with
      | .error e => (W, some e)
      | .ok s' => ({ W with states := W.states ++ [s'] }, none)
  | .update i j force fixed => match W.states[i]?, W.states[j]? with
    | some s, some g => W.put i (update W.heap s g force fixed)
    | _, _ => (W, some .nameError)
  | .get i node var => match W.states[i]? with
    | none => (W, some .nameError)
    | some s => match lookup s node var with
      | none => (W, some .keyError)
      | some v => ({ W with vars := W.vars ++ [v] }, none)
  | .assign i node var x => match W.states[i]?, W.vars[x]? with
    | some s, some v => match s.states.get? node with
      | none => (W, some .keyError)
      | some d => ({ W with states := W.states.set i { s with states := s.states.set node (d.set var v) } }, none)
    | _, _ => (W, some .nameError)
  | .given x => match W.vars[x]? with
    | none => (W, some .nameError)
    | some v => match makeGiven W.heap v with
      | (h, .error e) => ({ W with heap := h }, some e)
      | (h, .ok g) => ({ W with heap := h, nodes := W.nodes ++ [g] }, none)
  | .compute g i node var => match W.nodes[g]?, W.states[i]? with
    | some nd, some s => match giveNext W.heap nd s.numSamples with
      | .error e => (W, some e)
      | .ok (nd', v) => World.put { W with nodes := W.nodes.set g nd' } i (set W.heap s node var v false false)
    | _, _ => (W, some .nameError)
  | .reset g => match W.nodes[g]? with
    | none => (W, some .nameError)
    | some nd => ({ W with nodes := W.nodes.set g { nd with next := 0 } }, none)

/-- A program: statement after statement, whether or not they raise (each in its own `try`). -/
def run (W : World α) : List (Op α) → World α
  | [] => W
  | op :: rest => run (step W op).1 rest

/-- The memory at the start. -/
def start : World α := ⟨[], [], [], []⟩

end LCL.GraphHeap
