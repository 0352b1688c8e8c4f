import Verif.Model.FullRun
import Verif.Model.MultiObject

/-!
# `simulate_lightcurves` of any physical model (SED models, bandflux models and composites)
-/

namespace LCL.FullRun
open LCL LCL.EndToEnd
variable {V W σ R : Type}

/-- simulate.py:196-198 with physical_model.py:164-224: `evaluate_bandfluxes` of the model on a state with one sample gives its row. -/
noncomputable def evalPhys (o : PhysModel V W R ℝ) (noKw : W) (g : PassbandGroup ℝ) (ts : List ℝ) (fs : List Name) (st : SState ℝ) (r : R) : Except Err (List ℝ × R) :=
  match evaluateBandfluxes (fun g ts fs st r => PhysModel.bandfluxesSingle noKw g ts fs st o r) (.group g) ts (some fs) [st] r with
  | .error e => .error e
  | .ok ([row], r) => .ok (row, r)
  | .ok _ => .error .indexError

/-- simulate.py:51-238 `simulate_lightcurves` for any physical model, after sampling. -/
noncomputable def simulatePhysStates (o : PhysModel V W R ℝ) (noKw : W) (draw : R → ℝ × R) (states : List SimState) (args : List SurveyArg) (saveCols : List Name)
    (offset : Option (List (Option ℝ))) (r : R) : Except Err (SimResult × R) :=
  simulateWith o.isBand (fun a => evalPhys o noKw a.group) draw states args saveCols offset r

/-- simulate.py:51-238 `simulate_lightcurves` of any physical model: node `root` of the graph `H`, with the objects `objs` if it is a composite (multi_object_model.py:115-154
samples them with it). `mk` gives the model for a graph: the objects find their parameters under the names of their nodes. -/
noncomputable def simulatePhys (mk : Heap ℝ σ → PNode ℝ σ → PhysModel V W σ ℝ) (isBand : Bool) (noKw : W) (draw : σ → ℝ × σ) (H : Heap ℝ σ) (root : NodeId)
    (objs : List NodeId) (n : Int) (args : List SurveyArg) (saveCols paramCols : List Name) (offset : Option (List (Option ℝ))) (w : σ) : Except Err (Outcome σ) :=
  simulateFullWith isBand (fun H' nd a => evalPhys (mk H' nd) noKw a.group) draw H root objs n args saveCols paramCols offset w

end LCL.FullRun
