import Verif.Model.Samplers2

/-!
# Arrays shared between choice samplers and their caller
(`src/lightcurvelynx/math_nodes/given_sampler.py`, 142-160)

`GivenValueSampler` keeps the caller's arrays of values (line 145) and weights (line 153): `np.asarray` of an array is that array. The weights are then divided by their
sum in place (line 156). Arrays of the caller are cells of a world here.
-/

namespace LCL.SamplerShare
variable {K : Type} [Field K] [LinearOrder K] {α : Type}

/-- The result of `np.asarray`: a new array (from a list), which nothing else can reach, or an array of the caller. -/
inductive Src (β : Type)
  | own (l : List β)
  | shared (r : Nat)

/-- A `GivenValueSampler`: `values` and `_weights`. An entry `none` of the weights is a NaN or an infinity. -/
structure Sampler (K α : Type) where
  values : Src (Val α)
  weights : Option (Src (Option K))

/-- The caller's float arrays, the caller's arrays of values, and all samplers, in order of creation. -/
structure World (K α : Type) where
  floats : List (List (Option K))
  values : List (List (Val α))
  samplers : List (Sampler K α)

/-- What reading an attribute gives. -/
def content {β : Type} (arrays : List (List β)) : Src β → List β
  | .own l => l
  | .shared r => (arrays[r]?).getD []

/-- given_sampler.py:162-191: what `compute` sees: the values, and the weights if all are numbers. -/
def seen (W : World K α) (c : Sampler K α) : ValueSampler K α :=
  ⟨content W.values c.values, c.weights.map fun w => (content W.floats w).mapM id⟩

/-- An argument: a list, or an array of the caller. -/
inductive Arg (β : Type)
  | list (l : List β)
  | array (r : Nat)

/-- `np.asarray`. -/
def asarray {β : Type} : Arg β → Src β
  | .list l => .own l
  | .array r => .shared r

/-- given_sampler.py:156: `weights /= np.sum(weights)`. With a zero sum, or a NaN among the weights, no entry is a number any more (simplification: a weight next to an
infinite one becomes 0 in the code, and the infinite one NaN). -/
def normalise (l : List (Option K)) : List (Option K) :=
  match l.mapM id with
  | none => l.map fun _ => none
  | some w => if w.sum = 0 then l.map fun _ => none else w.map fun x => some (x / w.sum)

/-- The things a program does. -/
inductive Op (K α : Type)
  /-- `w = np.array([...])`, of floats. -/
  | floats (l : List K)
  /-- `w[i] = x`. -/
  | writeFloat (r i : Nat) (x : K)
  /-- `v = np.array([...])`. -/
  | values (l : List (Val α))
  /-- `v[i] = x`. -/
  | writeValue (r i : Nat) (x : Val α)
  /-- `GivenValueSampler(values, weights=weights)`. -/
  | build (values : Arg (Val α)) (weights : Option (Arg K))

/-- The arrays named by the arguments exist (other arguments cannot be written in Python). -/
def Named (W : World K α) : Op K α → Bool
  | .writeFloat r i _ => match W.floats[r]? with
    | some l => decide (i < l.length)
    | none => false
  | .writeValue r i _ => match W.values[r]? with
    | some l => decide (i < l.length)
    | none => false
  | .build v w => (match v with
    | .array r => decide (r < W.values.length)
    | .list _ => true) && (match w with
    | some (.array r) => decide (r < W.floats.length)
    | _ => true)
  | _ => true

/-- A list of weights as floats. -/
def floatArg : Arg K → Arg (Option K)
  | .list l => .list (l.map some)
  | .array r => .array r

/-- given_sampler.py:153-156: the weights are made an array, checked and divided in place; gives the attribute and the caller's arrays after it. -/
def takeWeights (floats : List (List (Option K))) (n : Nat) (w : Arg K) : Except Err (Src (Option K) × List (List (Option K))) :=
  let src := asarray (floatArg w)
  if (content floats src).length ≠ n then .error .valueError
  else match src with
    | .own l => .ok (.own (normalise l), floats)
    | .shared r => .ok (.shared r, floats.set r (normalise (content floats (.shared r))))

/-- given_sampler.py:142-160 `__init__`. -/
def build (W : World K α) (v : Arg (Val α)) (w : Option (Arg K)) : Except Err (World K α) :=
  let values := asarray v
  let n := (content W.values values).length
  if n = 0 then .error .valueError
  else match w with
    | none => .ok ⟨W.floats, W.values, W.samplers ++ [⟨values, none⟩]⟩
    | some w => match takeWeights W.floats n w with
      | .error e => .error e
      | .ok (src, floats) => .ok ⟨floats, W.values, W.samplers ++ [⟨values, some src⟩]⟩

/-- The effect, and the exception raised. Naming an array or an entry that does not exist does nothing and reports `runtimeError`. -/
def step (W : World K α) (op : Op K α) : World K α × Option Err :=
  if Named W op = false then (W, some .runtimeError)
  else match op with
    | .floats l => (⟨W.floats ++ [l.map some], W.values, W.samplers⟩, none)
    | .writeFloat r i x => (⟨W.floats.set r ((content W.floats (.shared r)).set i (some x)), W.values, W.samplers⟩, none)
    | .values l => (⟨W.floats, W.values ++ [l], W.samplers⟩, none)
    | .writeValue r i x => (⟨W.floats, W.values.set r ((content W.values (.shared r)).set i x), W.samplers⟩, none)
    | .build v w => match build W v w with
      | .error e => (W, some e)
      | .ok W' => (W', none)

/-- Do all of it, in order (exceptions are caught). -/
def run (W : World K α) : List (Op K α) → World K α
  | [] => W
  | op :: ops => run (step W op).1 ops

end LCL.SamplerShare
