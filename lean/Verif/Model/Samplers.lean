import Verif.Model.NodeMore

/-!
# Model of `src/lightcurvelynx/math_nodes/given_sampler.py`

Samplers override `compute`: draw a result, then `_save_results`. Array elements are `Val`
cells. A random generator is an arbitrary state `ρ` with operations whose documented numpy
contract is part of the structure.
-/

namespace LCL
variable {α σ ρ : Type}

/-! ## `GivenValueList` -/

/-- given_sampler.py:76-80: `values` and `next_ind`. -/
structure GivenList (α : Type) where
  values : List (Val α)
  next : Nat

namespace GivenList

/-- given_sampler.py:76-82 `__init__`. -/
def init (values : List (Val α)) : Except Err (GivenList α) :=
  if values.length = 0 then .error .valueError else .ok ⟨values, 0⟩

/-- given_sampler.py:84-86 `reset`. -/
def reset (g : GivenList α) : GivenList α := { g with next := 0 }

/-- given_sampler.py:108-120: the drawing part of `compute`. -/
def draw (g : GivenList α) (n : Nat) : GivenList α × Except Err (Val α) :=
  if n = 1 then
    match g.values[g.next]? with
    | none => (g, .error .indexError)
    | some v => ({ g with next := g.next + 1 }, .ok v)
  else if g.next + n > g.values.length then (g, .error .indexError)
  else ({ g with next := g.next + n }, .ok (.arr ((g.values.drop g.next).take n)))

/-- given_sampler.py:88-124 `compute`. -/
def compute (nd : PNode α σ) (g : GivenList α) (s : GState α) : GivenList α × GState α × Except Err (Val α) :=
  match g.draw s.numSamples with
  | (g', .error e) => (g', s, .error e)
  | (g', .ok results) =>
    match Heap.saveResultsS nd s results with
    | (s', none) => (g', s', .ok results)
    | (s', some e) => (g', s', .error e)

end GivenList

/-! ## `TableSampler` -/

/-- The numpy contract of `rng.integers(0, hi, size=n)`: `n` numbers below `hi` (`hi > 0`). -/
structure IntGen (ρ : Type) where
  draw : ρ → Nat → Nat → ρ × List Nat
  length : ∀ r hi n, (draw r hi n).2.length = n
  lt : ∀ r hi n, 0 < hi → ∀ k ∈ (draw r hi n).2, k < hi

/-- given_sampler.py:248-264: the table (columns of equal length), the mode and the cursor. -/
structure TableSampler (α : Type) where
  cols : Dict Name (List (Val α))
  rows : Nat
  inOrder : Bool
  next : Nat

namespace TableSampler

/-- given_sampler.py:248-267 `__init__`; an astropy `Table` has columns of one common length
(its constructor raises otherwise). -/
def init (cols : Dict Name (List (Val α))) (inOrder : Bool) : Except Err (TableSampler α) :=
  match cols with
  | [] => .error .valueError
  | (_, c) :: _ =>
    if cols.all (fun q => q.2.length = c.length) then
      if c.length = 0 then .error .valueError else .ok ⟨cols, c.length, inOrder, 0⟩
    else .error .valueError

/-- given_sampler.py:269-271 `reset`. -/
def reset (t : TableSampler α) : TableSampler α := { t with next := 0 }

/-- given_sampler.py:293-304: the row indices, the generator and the cursor. -/
def indices (G : IntGen ρ) (t : TableSampler α) (r : ρ) (n : Nat) : (TableSampler α × ρ) × Except Err (List Nat) :=
  if t.inOrder then
    if t.next + n > t.rows then ((t, r), .error .indexError)
    else (({ t with next := t.next + n }, r), .ok (List.range' t.next n))
  else
    let d := G.draw r t.rows n
    ((t, d.1), .ok d.2)

/-- given_sampler.py:309-313: one column at the chosen rows. -/
def column (n : Nat) (inds : List Nat) (col : List (Val α)) : Except Err (Val α) :=
  match inds.mapM (fun i => col[i]?) with
  | none => .error .indexError
  | some vs => if n = 1 then (match vs with | [] => .error .indexError | v :: _ => .ok v) else .ok (.arr vs)

/-- given_sampler.py:306-313: all columns; `outputs` are the column names. -/
def collect (t : TableSampler α) (outputs : List Name) (n : Nat) (inds : List Nat) : Except Err (List (Val α)) :=
  outputs.mapM fun name => match t.cols.get? name with
    | none => .error .keyError
    | some col => column n inds col

/-- given_sampler.py:273-317 `compute`; the node's outputs are the column names
(given_sampler.py:267). -/
def compute (G : IntGen ρ) (nd : PNode α σ) (t : TableSampler α) (r : ρ) (s : GState α) :
    (TableSampler α × ρ) × GState α × Except Err (Val α) :=
  match t.indices G r s.numSamples with
  | (t', .error e) => (t', s, .error e)
  | (t', .ok inds) =>
    match t.collect nd.outputs s.numSamples inds with
    | .error e => (t', s, .error e)
    | .ok results =>
      match Heap.saveResultsS nd s (.arr results) with
      | (s', none) => (t', s', .ok (.arr results))
      | (s', some e) => (t', s', .error e)

end TableSampler
end LCL
