import Verif.Base.Py
import Mathlib.Algebra.Order.Field.Basic
import Mathlib.Data.List.Chain

/-!
# Specification vocabulary for passbands

Nothing here refers to the model.
-/

namespace LCL.PassbandSpec
variable {K : Type} [Field K] [LinearOrder K]

/-- A physical transmission table: positive wavelengths, non-negative transmissions. -/
def Physical (t : List (K × K)) : Prop := ∀ p ∈ t, 0 < p.1 ∧ 0 ≤ p.2

/-- Every two neighbouring wavelengths differ by a step satisfying `P`. -/
def Steps (P : K → Prop) (waves : List K) : Prop := waves.IsChain (fun a b => P (b - a))

/-- The integral of the piecewise linear curve through the rows `(x, y)`. -/
def area : List (K × K) → K
  | p :: q :: l => (q.1 - p.1) * (p.2 + q.2) / 2 + area (q :: l)
  | _ => 0

end LCL.PassbandSpec
