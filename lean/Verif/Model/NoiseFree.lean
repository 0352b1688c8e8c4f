import Verif.Model.Simulate
import Mathlib.Algebra.Order.Floor.Ring
import Mathlib.Data.Real.Archimedean

/-!
# Model of the noise-free lightcurves (`src/lightcurvelynx/simulate.py`, lines 241-395)

The samples of the graph state are given as the list of their single-sample states. The model enters through
its `evaluate_bandfluxes` for the given passbands, a function of times, filters and state (models whose
evaluation draws random numbers are not covered). `np.arange(lo, hi, step)` is modelled with exact arithmetic
by its contract: ceil((hi - lo) / step) entries `lo + i * step`. Whether an argument is an integer matters
because an in-place addition of a float to an integer array raises TypeError; it is recorded in flags.
-/

namespace LCL

/-- A phase argument: a scalar or an array with one entry per sample. -/
inductive PhaseArg
  | scalar (x : ℝ)
  | arr (l : List ℝ)

/-- simulate.py:353-358: the argument for sample `idx` (IndexError if the array is too short). -/
def PhaseArg.at (a : PhaseArg) (idx : Nat) : Except Err ℝ :=
  match a with
  | .scalar x => .ok x
  | .arr l => match l[idx]? with
    | some x => .ok x
    | none => .error .indexError

/-- The three phase arguments; `isInt` if all three are integers. -/
structure Phases where
  lo : PhaseArg
  hi : PhaseArg
  step : PhaseArg
  isInt : Bool

/-- What is read of a sampled state; `t0Int` if t0 is an integer. -/
structure NFState where
  state : SState ℝ
  ra : Option ℝ
  dec : Option ℝ
  z : Option ℝ
  t0 : Option ℝ
  t0Int : Bool

open Classical in
/-- `np.arange` (a zero step raises; the kind of error depends on the types). -/
noncomputable def arange (lo hi step : ℝ) : Except Err (List ℝ) :=
  if step = 0 then .error .valueError
  else .ok ((List.range ⌈(hi - lo) / step⌉.toNat).map fun (i : Nat) => lo + i * step)

open Classical in
/-- simulate.py:291: whether the redshift is applied. -/
noncomputable def stretched : Option ℝ → Bool
  | none => false
  | some z => decide (0 < z)

/-- simulate.py:290-292. -/
noncomputable def stretchTimes (z : Option ℝ) (phases : List ℝ) : List ℝ :=
  if stretched z then phases.map fun p => p * (1 + z.getD 0) else phases

/-- simulate.py:294-296: `isInt` tells whether the array of times is an integer array. -/
def shiftTimes (t0 : Option ℝ) (isInt t0Int : Bool) (times : List ℝ) : Except Err (List ℝ) :=
  match t0 with
  | none => .ok times
  | some t => if isInt = true ∧ t0Int = false then .error .typeError else .ok (times.map fun x => x + t)

/-- simulate.py:300-303: the loop over the filters. -/
def evalFilters (eval : List ℝ → List Name → SState ℝ → Except Err (List ℝ)) (times : List ℝ) (st : SState ℝ) :
    List Name → Dict Name (List ℝ) → Except Err (Dict Name (List ℝ))
  | [], d => .ok d
  | f :: fs, d => match eval times (List.replicate times.length f) st with
    | .error e => .error e
    | .ok fl => evalFilters eval times st fs (d.set f fl)

/-- simulate.py:282-304 `compute_single_noise_free_lightcurve` on a single-sample state. -/
noncomputable def singleNoiseFree (eval : List ℝ → List Name → SState ℝ → Except Err (List ℝ)) (filters : List Name)
    (isInt : Bool) (lo hi step : ℝ) (s : NFState) : Except Err (Dict Name (List ℝ)) :=
  match arange lo hi step with
  | .error e => .error e
  | .ok phases =>
    match shiftTimes s.t0 (isInt && !stretched s.z) s.t0Int (stretchTimes s.z phases) with
    | .error e => .error e
    | .ok times => evalFilters eval times s.state filters [("times".toList, times), ("rest_phase".toList, phases)]

/-- simulate.py:371-373: the keys of the nested dictionary. -/
def nfKeys (filters : List Name) : List Name :=
  (filters.foldl (fun (d : Dict Name (List NCell)) f => d.set f [])
    [("times".toList, []), ("rest_phase".toList, [])]).keys

/-- simulate.py:387-388: the loop over the keys (a missing key raises KeyError). -/
def extendAll (lc : Dict Name (List ℝ)) : List Name → Dict Name (List NCell) → Except Err (Dict Name (List NCell))
  | [], d => .ok d
  | k :: ks, d => match lc.get? k with
    | none => .error .keyError
    | some l => extendAll lc ks (extend d k (l.map .num))

/-- simulate.py:377-389: the data of one sample. -/
noncomputable def noiseFreeOne (eval : List ℝ → List Name → SState ℝ → Except Err (List ℝ)) (filters : List Name)
    (ph : Phases) (idx : Nat) (s : NFState) : Except Err (Dict Name (List ℝ)) :=
  match ph.lo.at idx with
  | .error e => .error e
  | .ok lo => match ph.hi.at idx with
    | .error e => .error e
    | .ok hi => match ph.step.at idx with
      | .error e => .error e
      | .ok step => singleNoiseFree eval filters ph.isInt lo hi step s

/-- simulate.py:376-389: the loop over the samples. -/
noncomputable def noiseFreeLoop (eval : List ℝ → List Name → SState ℝ → Except Err (List ℝ)) (filters : List Name)
    (ph : Phases) : Nat → List NFState → Nested → Except Err Nested
  | _, [], nd => .ok nd
  | idx, s :: ss, nd => match noiseFreeOne eval filters ph idx s with
    | .error e => .error e
    | .ok lc => match extendAll lc (nfKeys filters) nd.cols with
      | .error e => .error e
      | .ok cols => noiseFreeLoop eval filters ph (idx + 1) ss
          { cols := cols, index := nd.index ++ List.replicate ((lc.get? "times".toList).getD []).length idx }

/-- simulate.py:307-395 `compute_noise_free_lightcurves`. -/
noncomputable def computeNoiseFree (eval : List ℝ → List Name → SState ℝ → Except Err (List ℝ)) (filters : List Name)
    (ph : Phases) (states : List NFState) : Except Err SimResult :=
  match noiseFreeLoop eval filters ph 0 states { cols := [], index := [] } with
  | .error e => .error e
  | .ok nd => match checkNested nd with
    | .error e => .error e
    | .ok nd => .ok { ids := List.range states.length, ra := states.map (·.ra), dec := states.map (·.dec),
                      nobs := [], nested := nd }

end LCL
