import Verif.Base.Num
import Verif.Model.Samplers

/-!
# Model of the choice samplers of `src/lightcurvelynx/math_nodes/given_sampler.py`

The random generator is an arbitrary state `ρ` with the documented numpy contract
(`Generator.random`: numbers in `[0, 1)`; `Generator.choice` as implemented in numpy: checks the
probabilities, then inverts the cumulative sum).
-/

namespace LCL
variable {K : Type} [Field K] [LinearOrder K] [IsStrictOrderedRing K] {α σ ρ : Type}

/-- numpy contract of `rng.random(n)`: `n` numbers in `[0, 1)`. -/
structure UnitGen (ρ K : Type) [Field K] [LinearOrder K] where
  draw : ρ → Nat → ρ × List K
  length : ∀ r n, (draw r n).2.length = n
  nonneg : ∀ r n, ∀ u ∈ (draw r n).2, 0 ≤ u
  lt_one : ∀ r n, ∀ u ∈ (draw r n).2, u < 1

/-- One value for one sample (`rng.random()`), an array for several (`rng.random(n)`). -/
def packed (n : Nat) (l : List (Val α)) : Val α :=
  if n = 1 then (match l with | [] => .none | v :: _ => v) else .arr l

/-! ## `BinarySampler` -/

/-- given_sampler.py:26-31 `__init__`: the stored probability. -/
def BinarySampler.init (p : K) : Except Err K := if p < 0 ∨ p > 1 then .error .valueError else .ok p

/-- given_sampler.py:33-61 `compute`; the results are booleans. -/
def BinarySampler.compute (G : UnitGen ρ K) (nd : PNode Bool σ) (p : K) (r : ρ) (s : GState Bool) :
    ρ × GState Bool × Except Err (Val Bool) :=
  let d := G.draw r s.numSamples
  let results : Val Bool := packed s.numSamples (d.2.map fun u => .scalar (decide (u < p)))
  match Heap.saveResultsS nd s results with
  | (s', none) => (d.1, s', .ok results)
  | (s', some e) => (d.1, s', .error e)

/-! ## `GivenValueSampler` -/

/-- The `weights` argument: a list of integers (or an integer array), or of floats. -/
inductive Weights (K : Type)
  | absent
  | ints (l : List Int)
  | floats (l : List K)

/-- given_sampler.py:145-158: `values` and `_weights`. `probs = some none`: the weights contain NaN
or infinities because their sum was zero. -/
structure ValueSampler (K α : Type) where
  values : List (Val α)
  probs : Option (Option (List K))

/-- given_sampler.py:142-160 `__init__`. In-place true division of an integer array raises
`UFuncTypeError` (a `TypeError`). -/
def ValueSampler.init (values : List (Val α)) (weights : Weights K) : Except Err (ValueSampler K α) :=
  if values.length = 0 then .error .valueError
  else match weights with
    | .absent => .ok ⟨values, none⟩
    | .ints l => if l.length ≠ values.length then .error .valueError else .error .typeError
    | .floats l =>
      if l.length ≠ values.length then .error .valueError
      else .ok ⟨values, some (if l.sum = 0 then none else some (l.map fun w => w / l.sum))⟩

/-- numpy `Generator.choice(n, size, p)`: negative or not-a-number probabilities, or ones that do not sum to 1
(simplification: exactly; numpy allows 1.5e-8), raise `ValueError`; otherwise the cumulative sum is inverted at uniform draws. -/
def choiceInds (GI : IntGen ρ) (G : UnitGen ρ K) (probs : Option (Option (List K))) (values : Nat) (r : ρ)
    (n : Nat) : ρ × Except Err (List Nat) :=
  match probs with
  | none => ((GI.draw r values n).1, .ok (GI.draw r values n).2)
  | some none => (r, .error .valueError)
  | some (some p) =>
    if p.any (fun x => decide (x < 0)) then (r, .error .valueError)
    else if p.sum ≠ 1 then (r, .error .valueError)
    else ((G.draw r n).1, .ok ((G.draw r n).2.map fun u => searchRight (cumsum p) u))

/-- given_sampler.py:162-191 `compute`. -/
def ValueSampler.compute (GI : IntGen ρ) (G : UnitGen ρ K) (nd : PNode α σ) (v : ValueSampler K α) (r : ρ)
    (s : GState α) : ρ × GState α × Except Err (Val α) :=
  match choiceInds GI G v.probs v.values.length r s.numSamples with
  | (r', .error e) => (r', s, .error e)
  | (r', .ok inds) =>
    match inds.mapM (fun i => v.values[i]?) with
    | none => (r', s, .error .indexError)
    | some l =>
      match Heap.saveResultsS nd s (packed s.numSamples l) with
      | (s', none) => (r', s', .ok (packed s.numSamples l))
      | (s', some e) => (r', s', .error e)

/-! ## `GivenValueSelector` -/

/-- An index: one integer, or an integer array. -/
inductive Index
  | one (i : Int)
  | many (l : List Int)

/-- given_sampler.py:215-219 `_select` (the function the node's `compute` evaluates). -/
def selectValue (values : List (Val α)) (index : Index) : Except Err (Val α) :=
  match index with
  | .one i =>
    if i < 0 ∨ i ≥ values.length then .error .indexError
    else match values[i.toNat]? with
      | some v => .ok v
      | none => .error .indexError
  | .many l =>
    if (l.any fun i => decide (i < 0)) ∨ (l.any fun i => decide (i ≥ values.length)) then .error .indexError
    else match l.mapM (fun i => values[i.toNat]?) with
      | some vs => .ok (.arr vs)
      | none => .error .indexError

end LCL
