import Verif.Model.FullRun

/-!
# Asking a model directly for its spectra and bandfluxes

`src/lightcurvelynx/models/physical_model.py` lines 164-224 (`evaluate_bandfluxes`) and 465-524 (`SEDModel.evaluate_sed`), for a model that is a node of a
graph, on a `GraphState` with any number of samples or on no state at all.

Simplifications: `rng_info`, if given, is part of the world `σ`; a parameter that holds an array for one sample makes the model stop with TypeError (the code goes
on); the rows of a result all have the shape that was asked for (an array of another shape would be broadcast by the code, or raise).
-/

namespace LCL.Direct
open LCL LCL.FullRun
variable {V A σ β : Type}

/-- What is returned for a state: the array itself for one sample, a stack of arrays for several. -/
inductive Stack (β : Type)
  | one (a : β)
  | many (l : List β)

/-- physical_model.py:209-224 and 502-524: the result for one sample, or the stack of the results of all samples. -/
def eachState (f : SState ℝ → σ → Except Err (β × σ)) (gs : GState ℝ) (w : σ) : Except Err (Stack β × σ) :=
  if gs.numSamples = 1 then
    match sstateOf gs.states with
    | .error e => .error e
    | .ok st => match f st w with
      | .error e => .error e
      | .ok (a, w') => .ok (.one a, w')
  else match gs.iterate with
    | .error e => .error e
    | .ok samples => match samples.mapM fun g => sstateOf g.states with
      | .error e => .error e
      | .ok states => match eachSample f states w with
        | .error e => .error e
        | .ok (l, w') => .ok (.many l, w')

/-- physical_model.py:189-191 and 496-500: the state to use, and the graph (its positions are set by sampling). `sample_parameters` (base_models.py:612) takes no
further keywords: passing any raises TypeError. -/
def stateFor (H : Heap ℝ σ) (root : NodeId) (state : Option (GState ℝ)) (given : Option (GState.UpdateArg ℝ)) (kw : Dict Name A) (w : σ) :
    Except Err (Heap ℝ σ × GState ℝ × σ) :=
  match state with
  | some gs => .ok (H, gs, w)
  | none => if kw.isEmpty then match Heap.sampleParameters H root [] given 1 w with
      | .error e => .error e
      | .ok (H', run) => .ok (H', run.gs, run.world)
    else .error .typeError

/-- physical_model.py:465-524 `SEDModel.evaluate_sed` of the node `root` of the graph `H`. `m` gives its methods; the name under which it finds its parameters is
the name of the node. The keywords are those the caller adds, handed to `compute_sed`. -/
noncomputable def askSed (m : SEDModel V (Dict Name A) σ ℝ) (H : Heap ℝ σ) (root : NodeId) (times waves : List ℝ) (state : Option (GState ℝ))
    (given : Option (GState.UpdateArg ℝ)) (kw : Dict Name A) (w : σ) : Except Err (Heap ℝ σ × Stack (Mat ℝ) × σ) :=
  match stateFor H root state given kw w with
  | .error e => .error e
  | .ok (H', gs, w) => match H'[root]? with
    | none => .error .attributeError
    | some nd => match eachState (fun st w => { m with nodeString := nd.str }.evaluateSingle [] times waves st w kw) gs w with
      | .error e => .error e
      | .ok (out, w') => .ok (H', out, w')

/-- physical_model.py:164-224 `evaluate_bandfluxes` of an SED model (526-559). -/
noncomputable def askBandfluxes (m : SEDModel V (Dict Name A) σ ℝ) (H : Heap ℝ σ) (root : NodeId) (arg : BandArg ℝ) (times : List ℝ)
    (filters : Option (List Name)) (state : Option (GState ℝ)) (w : σ) : Except Err (Heap ℝ σ × Stack (List ℝ) × σ) :=
  match stateFor H root state none ([] : Dict Name A) w with
  | .error e => .error e
  | .ok (H', gs, w) => match H'[root]? with
    | none => .error .attributeError
    | some nd => match arg.resolve times.length filters with
      | .error e => .error e
      | .ok (g, fs) =>
        if fs.length ≠ times.length then .error .valueError
        else match eachState (fun st w => { m with nodeString := nd.str }.evaluateBandfluxesSingle [] g times fs st w) gs w with
          | .error e => .error e
          | .ok (out, w') => .ok (H', out, w')

end LCL.Direct
