import Verif.Model.PointingSampler
import Verif.Model.ObsTable
import Verif.Model.FullRun

/-!
# The sampler of a survey's pointings as a node of a graph of parameters

`src/lightcurvelynx/math_nodes/ra_dec_sampler.py` lines 98-151 (`ObsTableRADECSampler`), with the row numbers drawn (`in_order=False`, the default), as a function node of `Model/Nodes.lean`.
The pieces are those of `Model/Samplers.lean` and `Model/PointingSampler.lean`; the storing of what is returned is that of `Model/Nodes.lean` (once: the first storing, before the shift, is
overwritten by the second). The cursor of the other mode would be part of the world.
-/

namespace LCL.PointingRun
open LCL
variable {ρ : Type}

/-- ra_dec_sampler.py:144-147: the two coordinates moved, the time as it is. -/
noncomputable def moved (P : Pointing) (us vs : List ℝ) (ra dec time : Val ℝ) : Except Err (Val ℝ) :=
  match Pointing.shift P.raInt ra (List.zipWith (Pointing.raOffset P.radius) us vs) with
  | .error e => .error e
  | .ok ra' => match Pointing.shift P.decInt dec (List.zipWith (Pointing.decOffset P.radius) us vs) with
    | .error e => .error e
    | .ok dec' => .ok (.arr [ra', dec', time])

open Classical in
/-- ra_dec_sampler.py:115-151 `compute` with given_sampler.py:293-317: the rows drawn, the three columns at those rows, and the two draws of the offset. -/
noncomputable def pointingBody (I : IntGen ρ) (U : UnitGen ρ ℝ) (P : Pointing) : ρ → Nat → Dict Name (Val ℝ) → ρ × Except Err (Val ℝ) := fun r n _ =>
  match P.table.indices I r n with
  | ((_, r1), .error e) => (r1, .error e)
  | ((_, r1), .ok inds) => match P.table.collect ["ra".toList, "dec".toList, "time".toList] n inds with
    | .error e => (r1, .error e)
    | .ok cols =>
      if P.radius > 0 then
        let d1 := U.draw r1 n
        let d2 := U.draw d1.1 n
        match cols with
        | [ra, dec, time] => (d2.1, moved P d1.2 d2.2 ra dec time)
        | _ => (d2.1, .error .typeError)
      else (r1, .ok (.arr cols))

end LCL.PointingRun
