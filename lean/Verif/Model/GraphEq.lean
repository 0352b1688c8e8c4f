import Verif.Model.GraphState
import Mathlib.Data.Real.Basic
import Mathlib.Algebra.Order.Group.Abs

/-!
# Equality of `GraphState`s and their files

`src/lightcurvelynx/graph_state.py` lines 119-142 (`__eq__`), 241-251 (`from_file`), 617-629 (`save_to_file`).
-/

namespace LCL.GState
open LCL
variable {α : Type}

/-- `np.isclose(a, b)` with the default tolerances: `|a - b| <= 1e-8 + 1e-5 * |b|`. -/
noncomputable def isclose (a b : ℝ) : Bool := open Classical in decide (|a - b| ≤ 1 / 100000000 + 1 / 100000 * |b|)

/-- One entry of an array given to `np.allclose`. None makes the array an object array, which `np.isfinite` rejects with TypeError. Arrays of arrays are not
modelled (TypeError here). -/
def cellNum : Val ℝ → Except Err ℝ
  | .scalar x => .ok x
  | _ => .error .typeError

/-- The numbers of a value given to `np.allclose`. -/
def cellNums : Val ℝ → Except Err (List ℝ)
  | .none => .error .typeError
  | .scalar x => .ok [x]
  | .arr l => l.mapM cellNum

/-- `np.allclose(a, b)` for numbers and one-dimensional arrays: a number or an array of one entry is compared with every entry of the other. -/
noncomputable def npAllclose (a b : Val ℝ) : Except Err Bool :=
  match cellNums a with
  | .error e => .error e
  | .ok xs => match cellNums b with
    | .error e => .error e
    | .ok ys =>
      if xs.length = ys.length then .ok ((xs.zip ys).all fun p => isclose p.1 p.2)
      else match xs, ys with
        | [x], ys => .ok (ys.all fun y => isclose x y)
        | xs, [y] => .ok (xs.all fun x => isclose x y)
        | _, _ => .error .valueError

/-- graph_state.py:135-139: the loop over the parameters of one node; `close` is `np.allclose`. -/
def varsEq (close : Val α → Val α → Except Err Bool) (other : Dict Name (Val α)) : List (Name × Val α) → Except Err Bool
  | [] => .ok true
  | (k, v) :: rest => match other.get? k with
    | none => .ok false
    | some v' => match close v v' with
      | .error e => .error e
      | .ok false => .ok false
      | .ok true => varsEq close other rest

/-- graph_state.py:125-139: the loop over the nodes. -/
def nodesEq (close : Val α → Val α → Except Err Bool) (other : Dict Name (Dict Name (Val α))) : List (Name × Dict Name (Val α)) → Except Err Bool
  | [] => .ok true
  | (n, vars) :: rest => match other.get? n with
    | none => .ok false
    | some vars' =>
      if vars.length ≠ vars'.length then .ok false
      else match varsEq close vars' vars with
        | .error e => .error e
        | .ok false => .ok false
        | .ok true => nodesEq close other rest

/-- graph_state.py:142: `self.fixed_vars == other.fixed_vars`, dictionaries of sets: same keys, same sets. -/
def fixedEq (f g : Dict Name (List Name)) : Bool :=
  (f.keys.all fun n => match f.get? n, g.get? n with
    | some a, some b => (a.all fun x => b.contains x) && (b.all fun x => a.contains x)
    | _, _ => false) &&
  (g.keys.all fun n => f.has n)

/-- graph_state.py:119-142 `__eq__`. -/
def eq (close : Val α → Val α → Except Err Bool) (s t : GState α) : Except Err Bool :=
  if s.numSamples ≠ t.numSamples then .ok false
  else if s.states.length ≠ t.states.length then .ok false
  else match nodesEq close t.states s.states with
    | .error e => .error e
    | .ok false => .ok false
    | .ok true => .ok (fixedEq s.fixed t.fixed)

/-- The files a program sees: what an ECSV file holds is the table that was written to it (`ascii.read` of what `ascii.write` wrote: an assumption about astropy). -/
abbrev Files (α : Type) := Dict Name (Tbl α)

/-- graph_state.py:617-629 `save_to_file`. The table is built first; astropy refuses to replace a file (OSError) unless asked to. -/
def saveToFile (fs : Files α) (s : GState α) (path : Name) (overwrite : Bool) : Files α × Option Err :=
  match s.toTable with
  | .error e => (fs, some e)
  | .ok t => if fs.has path && !overwrite then (fs, some .osError) else (fs.set path t, none)

/-- graph_state.py:241-251 `from_file`. -/
def fromFile (fs : Files α) (path : Name) : Except Err (GState α) :=
  match fs.get? path with
  | none => .error .fileNotFound
  | some t => fromTable t

end LCL.GState
