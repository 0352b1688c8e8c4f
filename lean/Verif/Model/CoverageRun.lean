import Verif.Model.Samplers3
import Verif.Model.ObsTable
import Verif.Model.FullRun

/-!
# The survey coverage sampler as a node of a graph of parameters

`src/lightcurvelynx/math_nodes/ra_dec_sampler.py` lines 214-263 (`ObsTableUniformRADECSampler.compute`), asking the survey table itself (`Model/ObsTable.lean`), as a function node
of `Model/Nodes.lean`. `Model/Samplers3.lean` has the same loop for any notion of coverage.
-/

namespace LCL.CoverageRun
open LCL
variable {ρ : Type}

/-- ra_dec_sampler.py:250: `np.asarray(self.data.is_observed(ra, dec, radius=self.radius))` for arrays of positions. -/
noncomputable def askCoverage (t : ObsTable) (rad : ℝ) (pts : List (ℝ × ℝ)) : Except Err (List Bool) :=
  match t.isObserved (.arr (pts.map fun p => some p.1)) (.arr (pts.map fun p => some p.2)) (some rad) .none .none with
  | .error e => .error e
  | .ok (.many bs) => .ok bs
  | .ok (.one _) => .error .typeError

/-- ra_dec_sampler.py:243-252: the rejection loop, with `fuel` iterations left. -/
noncomputable def coverLoop (G : UnitGen ρ ℝ) (t : ObsTable) (rad : ℝ) : Nat → ρ → List (ℝ × ℝ) → List Bool → ρ × Except Err (List (ℝ × ℝ) × List Bool)
  | 0, r, pts, mask => (r, .ok (pts, mask))
  | fuel + 1, r, pts, mask =>
    if missing mask > 0 then
      let d1 := G.draw r (missing mask)
      let d2 := G.draw d1.1 (missing mask)
      let pts' := refill pts mask (List.zip (d1.2.map (uniformRa true)) (d2.2.map (uniformDec true)))
      match askCoverage t rad pts' with
      | .error e => (d2.1, .error e)
      | .ok mask' => coverLoop G t rad fuel d2.1 pts' mask'
    else (r, .ok (pts, mask))

/-- ra_dec_sampler.py:236-252: the loop from its start. -/
noncomputable def cover (G : UnitGen ρ ℝ) (t : ObsTable) (rad : ℝ) (maxIter n : Nat) (r : ρ) : ρ × Except Err (List (ℝ × ℝ) × List Bool) :=
  coverLoop G t rad maxIter r (List.replicate n (0, 0)) (List.replicate n false)

/-- ra_dec_sampler.py:214-263 `compute`: what the node computes, right ascensions and declinations; lines 259-262 store them as `_save_results` does. -/
noncomputable def coverageBody (G : UnitGen ρ ℝ) (t : ObsTable) (rad : ℝ) (maxIter : Nat) : ρ → Nat → Dict Name (Val ℝ) → ρ × Except Err (Val ℝ) := fun r n _ =>
  match cover G t rad maxIter n r with
  | (r', .error e) => (r', .error e)
  | (r', .ok (pts, _)) => (r', .ok (.arr [packed n (pts.map fun p => .scalar p.1), packed n (pts.map fun p => .scalar p.2)]))

end LCL.CoverageRun
