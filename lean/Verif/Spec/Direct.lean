import Verif.Model.Direct
import Verif.Spec.FullRun

/-!
# Specification vocabulary for asking a model directly (C137)
-/

namespace LCL.DirectSpec
open LCL LCL.Direct
variable {β σ : Type}

/-- The part of a result that belongs to sample `k`. -/
def part : Stack β → Nat → Option β
  | .one a, k => if k = 0 then some a else none
  | .many l, k => l[k]?

/-- The result for `n` samples: one array for one sample, otherwise a stack of `n`. -/
def For (n : Nat) : Stack β → Prop
  | .one _ => n = 1
  | .many l => n ≠ 1 ∧ l.length = n

/-- A request `ask` for a whole state is answered by the answers to the requests for its samples: `extract_single_sample(k)` is asked in the world the request for
sample `k - 1` left. -/
def SampleBySample (ask : GState ℝ → σ → Except Err (Heap ℝ σ × Stack β × σ)) (gs : GState ℝ) (H : Heap ℝ σ) (w : σ) (out : Stack β) (w' : σ) : Prop :=
  For gs.numSamples out ∧ ∃ world : Nat → σ, world 0 = w ∧ world gs.numSamples = w' ∧
    ∀ k < gs.numSamples, ∃ gk a, gs.extractSample (k : Nat) = .ok gk ∧ part out k = some a ∧ ask gk (world k) = .ok (H, .one a, world (k + 1))

end LCL.DirectSpec
