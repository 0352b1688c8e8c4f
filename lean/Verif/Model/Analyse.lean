import Verif.Model.FullRun
import Verif.Model.PostProcess

/-!
# The table `simulate_lightcurves` returns, as the functions of `post_process_results.py` see it

`simulate.py:224-227`: the columns of the objects, labelled 0, 1, 2, …, and the nested column `lightcurve`, packed from the flat table of observations by its index.
-/

namespace LCL.Analyse
open LCL LCL.FullRun
variable {σ : Type}

/-- A cell of the flat table of observations. -/
def ofNCell : NCell → PCell
  | .num x => .num x
  | .text s => .text s
  | .survey i => .num i
  | .cell (.num x) => .num x
  | .cell (.str s) => .text s
  | .missing => .missing

/-- A cell of the table of objects. Simplification: dictionaries and arrays are not looked at by the post-processing and are represented by an empty text. -/
def ofRCell : RCell → PCell
  | .int n => .num n
  | .val (.scalar x) => .num x
  | .val .none => .missing
  | .val (.arr _) => .text []
  | .dict _ => .text []

/-- simulate.py:224-227: `add_nested` gives every object the observations with its index, in their order. -/
def resultFrame (out : Outcome σ) : NFrame :=
  { labels := (List.range out.sampled.numSamples).map Int.ofNat
    cols := out.table.map fun q => (q.1, q.2.map ofRCell)
    lc := some
      { counts := (List.range out.sampled.numSamples).map fun k => (out.nested.index.filter fun j => decide (j = k)).length
        flat := out.nested.cols.map fun q => (q.1, (List.range out.sampled.numSamples).flatMap fun k => (lightcurve out.nested k q.1).map ofNCell) } }

end LCL.Analyse
