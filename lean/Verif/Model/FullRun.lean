import Verif.Model.EndToEnd
import Verif.Model.NodeMore

/-!
# `simulate_lightcurves` from the graph of parameters to the table of results

`src/lightcurvelynx/simulate.py` lines 51-238 as a whole: sampling the model's graph (`Model/Nodes.lean`), the object columns of the results with the
requested parameter columns, and the lightcurves (`Model/Simulate.lean`, `Model/EndToEnd.lean`).

Simplifications: `rng` is given, it is part of the world `σ` that sampling changes and from which `draw` takes the noise; a parameter that holds an array for
one sample makes the model stop with TypeError (the code goes on).
-/

namespace LCL.FullRun
open LCL LCL.EndToEnd
variable {V W σ : Type}

/-- A parameter of a single-sample state as the evaluation reads it. -/
def pval : Val ℝ → Except Err (PVal ℝ)
  | .none => .ok .none
  | .scalar x => .ok (.num x)
  | .arr _ => .error .typeError

/-- The parameters of one node in a single-sample state. -/
def nodeParams : Dict Name (Val ℝ) → Except Err (Params ℝ)
  | [] => .ok []
  | (k, v) :: rest => match pval v with
    | .error e => .error e
    | .ok x => match nodeParams rest with
      | .error e => .error e
      | .ok l => .ok ((k, x) :: l)

/-- A single-sample state as the evaluation reads it. -/
def sstateOf : Dict Name (Dict Name (Val ℝ)) → Except Err (SState ℝ)
  | [] => .ok []
  | (k, d) :: rest => match nodeParams d with
    | .error e => .error e
    | .ok p => match sstateOf rest with
      | .error e => .error e
      | .ok l => .ok ((k, p) :: l)

/-- A number or None. -/
def optNum : Val ℝ → Except Err (Option ℝ)
  | .none => .ok none
  | .scalar x => .ok (some x)
  | .arr _ => .error .typeError

/-- simulate.py:128-129 and 135-136: `np.atleast_1d(model.get_param(sample_states, name))`. -/
def paramColumn (nd : PNode ℝ σ) (gs : GState ℝ) (name : Name) : Except Err (List (Val ℝ)) :=
  match Heap.getParam nd gs name .none with
  | .error e => .error e
  | .ok v => .ok (GState.atLeast1d v)

/-- A cell of the table of objects. -/
inductive RCell
  | int (n : Nat)
  | val (v : Val ℝ)
  | dict (d : Dict Name (Val ℝ))

/-- `np.atleast_1d(x).tolist()` of what `sample_states[col]` gives. -/
def itemCells : GState.Item ℝ → List RCell
  | .node d => [.dict d]
  | .value v => (GState.atLeast1d v).map .val
  | .pyNone => [.val .none]

/-- simulate.py:149: `col.replace(".", "_")`. -/
def colName (c : Name) : Name := c.map fun x => if x = '.' then '_' else x

/-- simulate.py:141-149: the loop over `param_cols`. -/
def paramLoop (gs : GState ℝ) : List Name → Dict Name (List RCell) → Except Err (Dict Name (List RCell))
  | [], d => .ok d
  | c :: cs, d => match gs.contains c with
    | .error e => .error e
    | .ok (some true) => match gs.getItem c with
      | .error e => .error e
      | .ok it => paramLoop gs cs (d.set (colName c) (itemCells it))
    | .ok _ => .error .keyError

/-- simulate.py:130-138: the columns every table of objects has. -/
def objectCols (n : Nat) (ra dec t0 z : List (Val ℝ)) (params : List (Dict Name (Val ℝ))) : Dict Name (List RCell) :=
  [("id".toList, (List.range n).map .int), ("ra".toList, ra.map .val), ("dec".toList, dec.map .val), ("nobs".toList, List.replicate n (.int 0)),
   ("t0".toList, t0.map .val), ("z".toList, z.map .val), ("params".toList, params.map .dict)]

/-- The objects the simulation loops over: state, position and time of reference of each sample. -/
def simStates : List (SState ℝ) → List (Option ℝ) → List (Option ℝ) → List (Option ℝ) → List SimState
  | s :: ss, r :: ra, d :: dec, t :: t0 => ⟨s, r, d, t⟩ :: simStates ss ra dec t0
  | _, _, _, _ => []

/-- simulate.py:126-149 and 160-166: the table of objects before the simulation, and what the simulation is given. Columns of different lengths make the code raise
ValueError (in `range_search` or in the construction of the frame). -/
def prepareRun (nd : PNode ℝ σ) (gs : GState ℝ) (paramCols : List Name) : Except Err (Dict Name (List RCell) × List SimState) := do
  let ra ← paramColumn nd gs "ra".toList
  let dec ← paramColumn nd gs "dec".toList
  let t0 ← paramColumn nd gs "t0".toList
  let z ← paramColumn nd gs "redshift".toList
  let samples ← gs.iterate
  let table ← paramLoop gs paramCols (objectCols gs.numSamples ra dec t0 z (samples.map GState.toDict))
  let states ← samples.mapM fun g => sstateOf g.states
  let ra ← ra.mapM optNum
  let dec ← dec.mapM optNum
  let t0 ← t0.mapM optNum
  if ra.length = gs.numSamples ∧ dec.length = gs.numSamples ∧ t0.length = gs.numSamples then
    return (table, simStates states ra dec t0)
  else .error .valueError

/-- simulate.py:222: `results_dict["nobs"][idx] = total_num_obs` for every object. -/
def setNobs (d : Dict Name (List RCell)) (nobs : List Nat) : Except Err (Dict Name (List RCell)) :=
  match d.get? "nobs".toList with
  | none => .error .keyError
  | some l => if l.length < nobs.length then .error .indexError else .ok (d.set "nobs".toList (nobs.map .int ++ l.drop nobs.length))

/-- simulate.py:225: the frame of objects; columns must have one entry per object. -/
def frame (n : Nat) (d : Dict Name (List RCell)) : Except Err (Dict Name (List RCell)) :=
  if d.all fun q => q.2.length == n then .ok d else .error .valueError

/-- What a call of `simulate_lightcurves` leaves: the graph (with its positions set), the sampled state (not returned, but determined by the columns), the table of
objects, the nested lightcurves and the world. -/
structure Outcome (σ : Type) where
  graph : Heap ℝ σ
  sampled : GState ℝ
  table : Dict Name (List RCell)
  nested : Nested
  world : σ

/-- simulate.py:51-238 `simulate_lightcurves` of the model that is node `root` of the graph `H` (`objs` are the objects of a composite model). `ev` is its `evaluate_bandfluxes` with the passbands of a survey; it may
look at the graph and the node, as sampling leaves them (the names under which parameters are found are there); `isBand`: it is a BandfluxModel. -/
noncomputable def simulateFullWith (isBand : Bool) (ev : Heap ℝ σ → PNode ℝ σ → SurveyArg → List ℝ → List Name → SState ℝ → σ → Except Err (List ℝ × σ)) (draw : σ → ℝ × σ) (H : Heap ℝ σ) (root : NodeId) (objs : List NodeId) (n : Int) (args : List SurveyArg)
    (saveCols paramCols : List Name) (offset : Option (List (Option ℝ))) (w : σ) : Except Err (Outcome σ) :=
  if n ≤ 0 then .error .valueError
  else match Heap.sampleParameters H root objs none n w with
    | .error e => .error e
    | .ok (H', run) => match H'[root]? with
      | none => .error .attributeError
      | some nd => match prepareRun nd run.gs paramCols with
        | .error e => .error e
        | .ok (table, states) => match simulateWith isBand (ev H' nd) draw states args saveCols offset run.world with
          | .error e => .error e
          | .ok (res, w') => match setNobs table res.nobs with
            | .error e => .error e
            | .ok table => match frame run.gs.numSamples table with
              | .error e => .error e
              | .ok table => .ok ⟨H', run.gs, table, res.nested, w'⟩

/-- simulate.py:51-238 `simulate_lightcurves` of the SED model that is node `root` of the graph `H`. `m` gives its methods; the name under which it finds its
parameters is the name of the node. -/
noncomputable def simulateFull (m : SEDModel V W σ ℝ) (noKw : W) (draw : σ → ℝ × σ) (H : Heap ℝ σ) (root : NodeId) (n : Int) (args : List SurveyArg)
    (saveCols paramCols : List Name) (offset : Option (List (Option ℝ))) (w : σ) : Except Err (Outcome σ) :=
  simulateFullWith false (fun _ nd a => evalModel { m with nodeString := nd.str } noKw a.group) draw H root [] n args saveCols paramCols offset w

end LCL.FullRun
