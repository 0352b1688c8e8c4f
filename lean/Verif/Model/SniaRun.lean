import Verif.Model.SniaRates
import Verif.Model.SeededSim

/-!
# Model of `example_runs/simulate_snia.py`

The source that `construct_snia_source` builds (lines 25-85) is an arbitrary sampler and an arbitrary pair of evaluation functions (the nodes it is made of are
modelled in `Model/RandomNodes`, `Model/Salt2`, `Model/SnCoord`, `Model/Sncosmo`). `ρ` is the state of a random generator; see `Model/EffectLib` (`Rng`): the
generator given by the caller, if any, and the entropy from which unseeded generators start. Passband files and the comparison with sncosmo
(`check_sncosmo`) are not modelled.
-/

namespace LCL.SniaRun
open LCL LCL.EffectLib LCL.SniaRates

variable {ρ : Type}

/-- The sampled values the function reads (lines 165-168): `state["source"]["ra"]`, ... -/
structure SnState where
  state : SState ℝ
  ra : ℝ
  dec : ℝ
  t0 : ℝ
  z : ℝ

/-- The source: `sample_parameters(num_samples)`, `evaluate_sed` and `evaluate_bandfluxes` for a state. -/
structure Source (ρ : Type) where
  sample : Nat → Rng ρ → Except Err (List SnState × Rng ρ)
  evalSed : List ℝ → List ℝ → SState ℝ → Rng ρ → Except Err (Mat ℝ × Rng ρ)
  evalBand : List ℝ → List Name → SState ℝ → Rng ρ → Except Err (List ℝ × Rng ρ)

/-- What the survey contributes: the table, its `bandflux_error_point_source`, the wavelengths of the passbands, and the unit conversion of line 196. -/
structure Setting where
  table : ObsTable
  error : List ℝ → List Nat → Except Err (List ℝ)
  waves : List ℝ
  toFlam : Mat ℝ → Except Err (Mat ℝ)

/-- The dictionary of results for one supernova. -/
structure Result where
  wavesRest : List ℝ
  times : List ℝ
  filters : List Name
  flux : Mat ℝ
  flam : Mat ℝ
  perfect : List ℝ
  error : List ℝ
  noisy : List ℝ
  state : SnState

/-- A call that is not handed the generator: it runs with unseeded generators. -/
def unseeded {β : Type} (f : Rng ρ → Except Err (β × Rng ρ)) (r : Rng ρ) : Except Err (β × Rng ρ) :=
  match f ⟨none, r.entropy⟩ with
  | .error e => .error e
  | .ok (b, r') => .ok (b, ⟨r.given, r'.entropy⟩)

/-- simulate_snia.py:176-180: the rows in the field of view, and among them those in the lifetime of the supernova. The times are looked up by label. -/
noncomputable def lifeRows (t : ObsTable) (st : SnState) : Except Err (List Nat) := do
  match ← t.rangeSearch (.scalar st.ra) (.scalar st.dec) (some (7 / 4)) .none .none with
  | .many _ => .error .typeError
  | .one rows =>
    let col ← t.getItem "time".toList
    let times ← (← ObsTable.loc t.labels col rows).mapM Cell.num?
    if times.length = rows.length then
      return ((rows.zip times).filter fun p => open Classical in
        decide (p.2 - st.t0 > -20 * (1 + st.z) ∧ p.2 - st.t0 < 50 * (1 + st.z))).map (·.1)
    else .error .indexError

/-- simulate_snia.py:133-215 `draw_single_random_sn` for a given state. -/
noncomputable def drawState (draw : ρ → ℝ × ρ) (src : Source ρ) (s : Setting) (st : SnState) (r : Rng ρ) : Except Err (Result × Rng ρ) := do
  let rows ← lifeRows s.table st
  let times ← (← ObsTable.loc s.table.labels (← s.table.getItem "time".toList) rows).mapM Cell.num?
  let bands ← (← ObsTable.loc s.table.labels (← s.table.getItem "filter".toList) rows).mapM Cell.str?
  let filters := bands.map ("LSST_".toList ++ ·)
  let (flux, r) ← src.evalSed times s.waves st.state r
  let flam ← s.toFlam flux
  let (perfect, r) ← unseeded (src.evalBand times filters st.state) r
  let err ← s.error perfect rows
  let (noisy, r) ← unseeded (SeededSim.simNoise draw perfect err) r
  return (⟨s.waves.map fun w => w / (1 + st.z), times, filters, flux, flam, perfect, err, noisy, st⟩, r)

/-- simulate_snia.py:280-323: the loop over the samples. -/
noncomputable def drawAll (draw : ρ → ℝ × ρ) (src : Source ρ) (s : Setting) : List SnState → Rng ρ → Except Err (List Result × Rng ρ)
  | [], r => .ok ([], r)
  | st :: sts, r => match drawState draw src s st r with
    | .error e => .error e
    | .ok (res, r) => match drawAll draw src s sts r with
      | .error e => .error e
      | .ok (l, r) => .ok (res :: l, r)

/-- simulate_snia.py:266-271: the number of supernovae; `None` for both is passed on and raises TypeError. -/
noncomputable def numSamples (nsample : Option Nat) (solidAngle : Option ℝ) : Except Err Nat :=
  match nsample, solidAngle with
  | some n, _ => .ok n
  | none, none => .error .typeError
  | none, some a => match numPerBin 0.1 0.4 1 (some a) 70 0.3 with
    | .error e => .error e
    | .ok (num, _) => match num[0]? with
      | none => .error .indexError
      | some x => .ok (pyInt x).toNat

/-- simulate_snia.py:218-325 `run_snia_end2end`; `construct` is `construct_snia_source` as a function of the sampled density of redshifts. The generator the
function starts if none is given is taken from the entropy by `fresh`. -/
noncomputable def run (draw : ρ → ℝ × ρ) (fresh : ρ → ρ × ρ) (construct : List (ℝ × ℝ) → Source ρ) (s : Setting) (nsample : Option Nat) (solidAngle : Option ℝ)
    (r : Rng ρ) : Except Err (List Result × Rng ρ) :=
  let r : Rng ρ := match r.given with
    | some _ => r
    | none => ⟨some (fresh r.entropy).1, (fresh r.entropy).2⟩
  match numPerBin 0.1 0.4 100 none 70 0.3 with
  | .error e => .error e
  | .ok (nsn, z) => match numSamples nsample solidAngle with
    | .error e => .error e
    | .ok n =>
      let src := construct (z.zip nsn)
      match unseeded (src.sample n) r with
      | .error e => .error e
      | .ok (states, r) => drawAll draw src s states r

end LCL.SniaRun
