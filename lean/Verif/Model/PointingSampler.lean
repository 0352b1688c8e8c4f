import Verif.Model.Samplers3

/-!
# Model of `ObsTableRADECSampler`

`math_nodes/ra_dec_sampler.py` lines 74-151: rows of a survey table, moved inside the field of view. One generator serves the
row numbers and the offsets. Columns are real numbers with a flag for an integer dtype (numpy refuses `int_array += float_array`).
-/

namespace LCL
variable {σ ρ : Type}

/-- ra_dec_sampler.py:98-113: the sampler. -/
structure Pointing where
  table : TableSampler ℝ
  radius : ℝ
  raInt : Bool
  decInt : Bool

namespace Pointing

/-- ra_dec_sampler.py:107-111: the columns `ra`, `dec`, `time` of the survey. -/
def columns (ra dec time : List ℝ) : Dict Name (List (Val ℝ)) :=
  [("ra".toList, ra.map .scalar), ("dec".toList, dec.map .scalar), ("time".toList, time.map .scalar)]

open Classical in
/-- ra_dec_sampler.py:98-113 `__init__`; `surveyRadius` is `survey_values.get("radius")`. -/
noncomputable def init (surveyRadius radius : Option ℝ) (ra dec time : List ℝ) (raInt decInt inOrder : Bool) : Except Err Pointing :=
  match (match radius with | some x => some x | none => surveyRadius) with
  | none => .error .valueError
  | some x =>
    if x < 0 then .error .valueError
    else match TableSampler.init (columns ra dec time) inOrder with
      | .error e => .error e
      | .ok t => .ok ⟨t, x, raInt, decInt⟩

/-- `results[i] += offsets` (ra_dec_sampler.py:145-146): an array is changed in place, which needs a float dtype; one sample is a numpy
number, and number plus array is an array. -/
def shift (isInt : Bool) (v : Val ℝ) (offs : List ℝ) : Except Err (Val ℝ) :=
  match v with
  | .none => .error .typeError
  | .scalar x => .ok (.arr (offs.map fun o => .scalar (x + o)))
  | .arr rows =>
    if isInt then .error .typeError
    else .ok (.arr (List.zipWith (fun row o => match row with | .scalar x => .scalar (x + o) | w => w) rows offs))

/-- ra_dec_sampler.py:141, 145: the right ascension offset for the draws `u` (distance) and `v` (angle). -/
noncomputable def raOffset (radius u v : ℝ) : ℝ := radius * Real.sqrt u * Real.cos (2 * Real.pi * v)

/-- ra_dec_sampler.py:142, 146: the declination offset. -/
noncomputable def decOffset (radius u v : ℝ) : ℝ := radius * Real.sqrt u * Real.sin (2 * Real.pi * v)

/-- ra_dec_sampler.py:144-149: move the positions and save again. -/
noncomputable def resave (P : Pointing) (nd : PNode ℝ σ) (s : GState ℝ) (us vs : List ℝ) (results : Val ℝ) : GState ℝ × Except Err (Val ℝ) :=
  match results with
  | .arr [ra, dec, time] =>
    match shift P.raInt ra (List.zipWith (raOffset P.radius) us vs) with
    | .error e => (s, .error e)
    | .ok ra' => match shift P.decInt dec (List.zipWith (decOffset P.radius) us vs) with
      | .error e => (s, .error e)
      | .ok dec' => match Heap.saveResultsS nd s (.arr [ra', dec', time]) with
        | (s', none) => (s', .ok (.arr [ra', dec', time]))
        | (s', some e) => (s', .error e)
  | _ => (s, .error .typeError)

open Classical in
/-- ra_dec_sampler.py:115-151 `compute`. -/
noncomputable def compute (G : IntGen ρ) (U : UnitGen ρ ℝ) (P : Pointing) (nd : PNode ℝ σ) (r : ρ) (s : GState ℝ) :
    (Pointing × ρ) × GState ℝ × Except Err (Val ℝ) :=
  match P.table.compute G nd r s with
  | ((t, r'), s', .error e) => (({ P with table := t }, r'), s', .error e)
  | ((t, r'), s', .ok results) =>
    if P.radius > 0 then
      let d1 := U.draw r' s.numSamples
      let d2 := U.draw d1.1 s.numSamples
      let q := resave P nd s' d1.2 d2.2 results
      (({ P with table := t }, d2.1), q.1, q.2)
    else (({ P with table := t }, r'), s', .ok results)

end Pointing
end LCL
