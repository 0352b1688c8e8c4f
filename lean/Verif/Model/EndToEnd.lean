import Verif.Model.Simulate
import Verif.Model.Photometry
import Verif.Model.Physical

/-!
# The whole path of `simulate_lightcurves` for an SED model

`Model/Simulate.lean` leaves the model's `evaluate_bandfluxes` and the survey's `bandflux_error_point_source` open. Here they are the ones of
`Model/Physical.lean` and `Model/Photometry.lean`: an `SEDModel`, one `PassbandGroup` per survey, and survey tables of the kinds OpSim, ZTF and Roman.
-/

namespace LCL.EndToEnd
open LCL

/-- The class of a survey table. -/
inductive Kind
  | opsim
  | ztf
  | roman

/-- `bandflux_error_point_source` of the class: opsim.py:148-186, ztf_obstable.py:154-184, roman_obstable.py:209-241. -/
noncomputable def errorOf : Kind → ObsTable → List ℝ → List Nat → Except Err (List (Option ℝ))
  | .opsim => opsimError
  | .ztf => ztfError
  | .roman => romanError

/-- simulate.py:199: the errors of the fluxes. Simplification: a NaN error (see C42) makes the model stop; the code goes on with NaN. -/
noncomputable def finiteErrors (k : Kind) (t : ObsTable) (p : List ℝ) (rows : List Nat) : Except Err (List ℝ) :=
  match errorOf k t p rows with
  | .error e => .error e
  | .ok l => match l.mapM id with
    | none => .error .valueError
    | some l => .ok l

/-- simulate.py:196-198 with physical_model.py:164-224: `evaluate_bandfluxes` on a state with one sample gives its row. -/
noncomputable def evalModel {V W R : Type} (m : SEDModel V W R ℝ) (noKw : W) (g : PassbandGroup ℝ) (ts : List ℝ) (fs : List Name) (st : SState ℝ) (r : R) :
    Except Err (List ℝ × R) :=
  match evaluateBandfluxes (m.evaluateBandfluxesSingle noKw) (.group g) ts (some fs) [st] r with
  | .error e => .error e
  | .ok ([row], r) => .ok (row, r)
  | .ok _ => .error .indexError

/-- One survey given to `simulate_lightcurves`: table and passbands. -/
structure SurveyArg where
  kind : Kind
  table : ObsTable
  group : PassbandGroup ℝ

/-- simulate.py:177-200: what the simulation does with the survey, for a model whose `evaluate_bandfluxes` with the survey's passbands is `ev a`. -/
noncomputable def surveyWith {R : Type} (ev : SurveyArg → List ℝ → List Name → SState ℝ → R → Except Err (List ℝ × R)) (a : SurveyArg) : Survey R :=
  ⟨a.table, ev a, finiteErrors a.kind a.table⟩

/-- simulate.py:51-238 `simulate_lightcurves` with `apply_obs_mask=False` (the default), after sampling, for any model (`isBand`: it is a BandfluxModel). -/
noncomputable def simulateWith {R : Type} (isBand : Bool) (ev : SurveyArg → List ℝ → List Name → SState ℝ → R → Except Err (List ℝ × R)) (draw : R → ℝ × R)
    (states : List SimState) (args : List SurveyArg) (saveCols : List Name) (offset : Option (List (Option ℝ))) (r : R) : Except Err (SimResult × R) :=
  simulateLightcurves (applyNoise draw) isBand states (args.map (surveyWith ev)) args.length saveCols none offset r

/-- simulate.py:177-200 for an SED model. -/
noncomputable def surveyOf {V W R : Type} (m : SEDModel V W R ℝ) (noKw : W) : SurveyArg → Survey R :=
  surveyWith fun a => evalModel m noKw a.group

/-- simulate.py:51-238 `simulate_lightcurves` for an SED model with `apply_obs_mask=False` (the default), after sampling. -/
noncomputable def simulate {V W R : Type} (m : SEDModel V W R ℝ) (noKw : W) (draw : R → ℝ × R) (states : List SimState) (args : List SurveyArg)
    (saveCols : List Name) (offset : Option (List (Option ℝ))) (r : R) : Except Err (SimResult × R) :=
  simulateWith false (fun a => evalModel m noKw a.group) draw states args saveCols offset r

end LCL.EndToEnd
