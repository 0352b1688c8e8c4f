import Verif.Model.GraphState

/-!
# Specification vocabulary for `GraphState`

Independent of the model's helpers: what a caller can observe (`readParam`), histories of calls,
and the abstract map a `GraphState` is supposed to be.
-/

namespace LCL.GraphSpec
open LCL
variable {α : Type}

/-- What `state["node.param"]` yields: `some v` if a value is returned, `none` if it raises
(or returns anything that is not a value). -/
def readParam (s : GState α) (node param : Name) : Option (Val α) :=
  match s.getItem (node ++ '.' :: param) with
  | .ok (.value v) => some v
  | _ => none

/-- How a value is kept by a state with `n` samples: as given when `n = 1`; otherwise a scalar
stands for `n` equal rows, an array must have `n` rows, anything else is rejected. -/
def storedAs (n : Nat) (v w : Val α) : Prop :=
  (n = 1 ∧ w = v) ∨
  (n ≠ 1 ∧ ∃ rows, w = .arr rows ∧ rows.length = n ∧
    (v = .arr rows ∨ ∃ a, v = .scalar a ∧ ∀ r ∈ rows, r = .scalar a))

/-- One call made by the user on a state. -/
inductive Op (α : Type)
  | set (node param : Name) (v : Val α) (fixed : Bool)
  | update (arg : GState.UpdateArg α) (allFixed : Bool)

/-- The state after one call (the caller catches a raised exception). -/
def step (s : GState α) : Op α → GState α
  | .set n p v f => (s.set n p v f).1
  | .update a f => (s.update a f).1

/-- The state after a history of calls. -/
def run (s : GState α) (ops : List (Op α)) : GState α := ops.foldl step s

/-- States a program can reach from a fresh `GraphState(num_samples)`. -/
def Reachable (s : GState α) : Prop :=
  ∃ (n : Int) (s0 : GState α) (ops : List (Op α)), GState.init n = .ok s0 ∧ s = run s0 ops

/-- The public `fixed_vars` attribute marks the parameter as fixed. -/
def isFixed (s : GState α) (node param : Name) : Prop :=
  ∃ fx, s.fixed.get? node = some fx ∧ param ∈ fx

/-- Every call of the history returns normally. -/
def AllSucceed : GState α → List (Op α) → Prop
  | _, [] => True
  | s, .set n p v f :: rest => (s.set n p v f).2 = none ∧ AllSucceed (s.set n p v f).1 rest
  | s, .update a f :: rest => (s.update a f).2 = none ∧ AllSucceed (s.update a f).1 rest

/-- Row `i` of a stored array. -/
def rowAt (v : Val α) (i : Nat) : Option (Val α) :=
  match v with
  | .arr rows => rows[i]?
  | _ => none

/-- States a program can hold: reachable ones and single samples extracted from them. -/
def Obtainable (g : GState α) : Prop :=
  Reachable g ∨ ∃ (s : GState α) (i : Int), Reachable s ∧ s.extractSample i = .ok g

/-- The rows a value contributes to a concatenation (`np.atleast_1d`). -/
def cells (v : Val α) : List (Val α) :=
  match v with
  | .arr rows => rows
  | v => [v]

/-- A value that is not itself an array. -/
def isCell (v : Val α) : Prop := ∀ rows, v ≠ .arr rows

/-- `(node, param)` pairs stored in a state, in storage order. -/
def pairs (s : GState α) : List (Name × Name) :=
  s.states.flatMap fun (n, vars) => vars.map fun (k, _) => (n, k)

/-- The abstract map: for every parameter its value and whether it is fixed. -/
abbrev AMap (α : Type) := Name → Name → Option (Val α × Bool)

/-- One write on the abstract map: nothing happens to dotted names, to fixed parameters and for
values that cannot be stored; otherwise exactly this entry is replaced. -/
def AWrite (n : Nat) (a : AMap α) (node param : Name) (v : Val α) (fixed : Bool)
    (b : AMap α) : Prop :=
  (('.' ∈ node ∨ '.' ∈ param ∨ (∃ w, a node param = some (w, true)) ∨ (¬ ∃ w, storedAs n v w)) ∧
      b = a) ∨
  ('.' ∉ node ∧ '.' ∉ param ∧ (¬ ∃ w, a node param = some (w, true)) ∧
    ∃ w, storedAs n v w ∧ b node param = some (w, fixed) ∧
      ∀ node' param', (node', param') ≠ (node, param) → b node' param' = a node' param')

/-- A history of writes on the abstract map. -/
inductive ARun (n : Nat) : AMap α → List (Name × Name × Val α × Bool) → AMap α → Prop
  | nil (a) : ARun n a [] a
  | cons {a b c node param v fixed rest} : AWrite n a node param v fixed b → ARun n b rest c →
      ARun n a ((node, param, v, fixed) :: rest) c

end LCL.GraphSpec
