import Mathlib.Algebra.Polynomial.Derivative
import Mathlib.Algebra.Polynomial.Eval.Degree
import Mathlib.Algebra.Order.Field.Basic

/-!
# Natural cubic splines (textbook definition)
-/

namespace LCL.SplineSpec
open Polynomial
variable {K : Type} [Field K] [LinearOrder K]

/-- `p 0, …, p (n-2)` are the pieces of a natural cubic spline through the points `(x i, y i)`,
`i < n`: each piece is a polynomial of degree at most three through the two ends of its interval,
neighbouring pieces have the same first and second derivative at their common knot, and the second
derivative vanishes at the two ends. -/
structure NaturalSpline (n : Nat) (x y : Nat → K) (p : Nat → K[X]) : Prop where
  cubic : ∀ i, i + 1 < n → (p i).natDegree ≤ 3
  left : ∀ i, i + 1 < n → (p i).eval (x i) = y i
  right : ∀ i, i + 1 < n → (p i).eval (x (i + 1)) = y (i + 1)
  slope : ∀ i, i + 2 < n → (derivative (p i)).eval (x (i + 1)) = (derivative (p (i + 1))).eval (x (i + 1))
  bend : ∀ i, i + 2 < n →
    (derivative (derivative (p i))).eval (x (i + 1)) = (derivative (derivative (p (i + 1)))).eval (x (i + 1))
  first : 2 ≤ n → (derivative (derivative (p 0))).eval (x 0) = 0
  last : 2 ≤ n → (derivative (derivative (p (n - 2)))).eval (x (n - 1)) = 0

/-- The piece used at the query `q`: the last interval whose left end is not above `q` (the end pieces
outside the knots). -/
def InPiece (n : Nat) (x : Nat → K) (i : Nat) (q : K) : Prop :=
  i + 1 < n ∧ (i = 0 ∨ x i ≤ q) ∧ (i + 2 = n ∨ q ≤ x (i + 1))

end LCL.SplineSpec
