import Mathlib.Algebra.Polynomial.Derivative
import Mathlib.Algebra.Polynomial.Eval.Degree

/-!
# Specification vocabulary for the SALT2 colour law (C76)
-/

namespace LCL.Salt2Spec
open Polynomial
variable {K : Type} [Field K]

/-- `c₀ Xⁿ + c₁ Xⁿ⁺¹ + …`. -/
noncomputable def polyFrom (n : Nat) : List K → K[X]
  | [] => 0
  | c :: cs => C c * X ^ n + polyFrom (n + 1) cs

/-- The colour polynomial: the first six coefficients belong to `X², …, X⁷`, and the coefficient of `X` makes all sum to one. -/
noncomputable def lawPoly (coeffs : List K) : K[X] :=
  C (1 - (coeffs.take 6).sum) * X + polyFrom 2 (coeffs.take 6)

/-- Wavelength scaled so that the blue reference (4302.57 Å) is 0 and the visual one (5428.55 Å) is 1. -/
def reduced (w : K) : K := (w - 4302.57) / (5428.55 - 4302.57)

end LCL.Salt2Spec
