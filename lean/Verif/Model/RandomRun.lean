import Verif.Model.CompositeRun

/-!
# `simulate_lightcurves` of a model that selects one of its objects at random

In the code the parameter `selected_object` holds a string. The values of the sampled state in this model are numbers and None, so a string is stored here as a number
and read back before the model is evaluated: `code x` is the string that the number `x` stands for.
-/

namespace LCL.RandomRun
open LCL LCL.EndToEnd LCL.FullRun
variable {V W σ R : Type}

/-- The value of one parameter, with the strings read back: only `selected_object` holds strings (multi_object_model.py:441-444). -/
noncomputable def readBack (code : ℝ → Option Name) (key : Name) : PVal ℝ → PVal ℝ
  | .num x => if key = "selected_object".toList then match code x with
      | some n => .str n
      | none => .num x
    else .num x
  | v => v

/-- The parameters of a node with the strings read back. -/
noncomputable def readParams (code : ℝ → Option Name) (p : Params ℝ) : Params ℝ := p.map fun q => (q.1, readBack code q.1 q.2)

/-- A single-sample state with the strings read back. -/
noncomputable def readState (code : ℝ → Option Name) (st : SState ℝ) : SState ℝ := st.map fun q => (q.1, readParams code q.2)

/-- simulate.py:51-238 `simulate_lightcurves` of any physical model, some of whose parameters select objects by name: node `root` of the graph `H`, with the objects
`objs` if it is a composite (multi_object_model.py:115-154 samples them with it). -/
noncomputable def simulateNamed (code : ℝ → Option Name) (mk : Heap ℝ σ → PNode ℝ σ → PhysModel V W σ ℝ) (isBand : Bool) (noKw : W) (draw : σ → ℝ × σ) (H : Heap ℝ σ)
    (root : NodeId) (objs : List NodeId) (n : Int) (args : List SurveyArg) (saveCols paramCols : List Name) (offset : Option (List (Option ℝ))) (w : σ) :
    Except Err (Outcome σ) :=
  simulateFullWith isBand (fun H' nd a ts fs st r => evalPhys (mk H' nd) noKw a.group ts fs (readState code st) r) draw H root objs n args saveCols paramCols offset w

end LCL.RandomRun
