import Verif.Model.Simulate
import Verif.Model.Photometry
import Verif.Model.EffectLib

/-!
# The randomness of a simulation (`simulate.py`)

`simulate_lightcurves(..., rng=...)` hands its generator to `sample_parameters` and to `apply_noise`, but not to
`evaluate_bandfluxes` (simulate.py:196-200). The random state of `Model/Simulate.lean` is here the generator given, if any, and
the entropy from which unseeded generators start.
-/

namespace LCL.SeededSim
open LCL LCL.EffectLib

variable {ρ : Type}

/-- simulate.py:200 and noise_model.py:98-101: `apply_noise(..., rng=rng)`; without a generator a new one is started. -/
noncomputable def simNoise (draw : ρ → ℝ × ρ) (p e : List ℝ) (r : Rng ρ) : Except Err (List ℝ × Rng ρ) :=
  match r.given with
  | some g => match applyNoise draw p e g with
    | .error err => .error err
    | .ok (f, g') => .ok (f, ⟨some g', r.entropy⟩)
  | none => match applyNoise draw p e r.entropy with
    | .error err => .error err
    | .ok (f, e') => .ok (f, ⟨none, e'⟩)

/-- simulate.py:196-198: `model.evaluate_bandfluxes(passbands, times, filters, state)`, called without `rng_info`. `evaluate` is the
model's evaluation on a single state. -/
def simEval (evaluate : List ℝ → List Name → SState ℝ → Rng ρ → Except Err (List ℝ × Rng ρ)) (ts : List ℝ) (fs : List Name) (st : SState ℝ)
    (r : Rng ρ) : Except Err (List ℝ × Rng ρ) :=
  match evaluate ts fs st ⟨none, r.entropy⟩ with
  | .error e => .error e
  | .ok (b, r') => .ok (b, ⟨r.given, r'.entropy⟩)

/-- A survey whose fluxes come from a model. -/
def simSurvey (table : ObsTable) (evaluate : List ℝ → List Name → SState ℝ → Rng ρ → Except Err (List ℝ × Rng ρ))
    (error : List ℝ → List Nat → Except Err (List ℝ)) : Survey (Rng ρ) := ⟨table, simEval evaluate, error⟩

end LCL.SeededSim
