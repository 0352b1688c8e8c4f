import Verif.Model.Direct
import Verif.Model.CompositeRun

/-!
# Asking any physical model for its bandfluxes

`src/lightcurvelynx/models/physical_model.py` lines 164-224 (`evaluate_bandfluxes`) for SED models, bandflux models (638-678) and composites
(`multi_object_model.py` 358-406, 537-579), on a given state or on no state at all. Same simplifications as in `Model/Direct`.
-/

namespace LCL.AskAny
open LCL LCL.FullRun LCL.Direct
variable {V W σ : Type}

/-- physical_model.py:189-191: the state to use; a composite samples its objects `objs` with it (multi_object_model.py:115-154). -/
def stateOr (H : Heap ℝ σ) (root : NodeId) (objs : List NodeId) (state : Option (GState ℝ)) (w : σ) : Except Err (Heap ℝ σ × GState ℝ × σ) :=
  match state with
  | some gs => .ok (H, gs, w)
  | none => match Heap.sampleParameters H root objs none 1 w with
    | .error e => .error e
    | .ok (H', run) => .ok (H', run.gs, run.world)

/-- physical_model.py:164-224 `evaluate_bandfluxes` of the node `root`; `mk` gives the model for a graph: the objects find their parameters under the names of their
nodes. -/
noncomputable def askPhys (mk : Heap ℝ σ → PNode ℝ σ → PhysModel V W σ ℝ) (noKw : W) (H : Heap ℝ σ) (root : NodeId) (objs : List NodeId) (arg : BandArg ℝ) (times : List ℝ)
    (filters : Option (List Name)) (state : Option (GState ℝ)) (w : σ) : Except Err (Heap ℝ σ × Stack (List ℝ) × σ) :=
  match stateOr H root objs state w with
  | .error e => .error e
  | .ok (H', gs, w) => match H'[root]? with
    | none => .error .attributeError
    | some nd => match arg.resolve times.length filters with
      | .error e => .error e
      | .ok (g, fs) =>
        if fs.length ≠ times.length then .error .valueError
        else match eachState (fun st w => PhysModel.bandfluxesSingle noKw g times fs st (mk H' nd) w) gs w with
          | .error e => .error e
          | .ok (out, w') => .ok (H', out, w')

end LCL.AskAny
