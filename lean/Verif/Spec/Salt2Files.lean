import Verif.Props.GridIO
import Verif.Props.Bicubic
import Verif.Spec.SniaSurvey

/-!
# Specification vocabulary for SALT2 models read from a directory (C123)
-/

namespace LCL.Salt2FilesSpec
open LCL LCL.GridIOProps LCL.BicubicProps LCL.SniaSurveySpec

/-- `M` interpolates the values `z` on the grid of `x` and `y`, as a bicubic interpolator does: it has the values of the grid at the grid points (on axes whose spacing is judged rightly), is zero
outside, and is exact for `α + β x + γ y + δ x y` on regular axes. -/
structure Interpolates (x y : List ℝ) (z : List (List ℝ)) (M : ℝ → ℝ → ℝ) : Prop where
  node : Sound x → Sound y → ∀ (i j : Nat) a b r v, x[i]? = some a → y[j]? = some b → z[i]? = some r → r[j]? = some v → M a b = v
  outside : ∀ a b, (∀ c ∈ x, a < c) ∨ (∀ c ∈ x, c < a) ∨ (∀ c ∈ y, b < c) ∨ (∀ c ∈ y, c < b) → M a b = 0
  bilinear : ∀ hx hy α β γ δ, (∀ d, IsStep x d → d = hx) → (∀ d, IsStep y d → d = hy) →
    (∀ (i j : Nat) a b r v, x[i]? = some a → y[j]? = some b → z[i]? = some r → r[j]? = some v → v = α + β * a + γ * b + δ * a * b) →
    ∀ a b, (∃ c ∈ x, c ≤ a) → (∃ c ∈ x, a ≤ c) → (∃ c ∈ y, c ≤ b) → (∃ c ∈ y, b ≤ c) → M a b = α + β * a + γ * b + δ * a * b

/-- The F_lambda of a SALT2 model in erg/s/cm^2/AA, whose templates are in units of 1e-12 of that: `x0 (M0 + x1 M1) 10^(-0.4 c CL)`. -/
noncomputable def saltFlam (M0 M1 : ℝ → ℝ → ℝ) (CL : ℝ → ℝ) (x0 x1 c phase w : ℝ) : ℝ :=
  x0 * (1e-12 * M0 phase w + x1 * (1e-12 * M1 phase w)) * (10 : ℝ) ^ (-0.4 * CL w * c)

/-- The same in nJy, seen from redshift `z`. -/
noncomputable def saltObserved (M0 M1 : ℝ → ℝ → ℝ) (CL : ℝ → ℝ) (x0 x1 c z t0 t w : ℝ) : ℝ :=
  (1 + z) * nanojansky (saltFlam M0 M1 CL x0 x1 c ((t - t0) / (1 + z)) (w / (1 + z))) (w / (1 + z))

/-- The content of a grid file that holds the table of a grid whose axes have at least three points. -/
structure GridFile (file : Option (List (List ℝ))) (x y : List ℝ) (z : List (List ℝ)) : Prop where
  grid : Grid x y z
  content : file = some (columns (dump x y z))
  long : 3 ≤ x.length ∧ 3 ≤ y.length

end LCL.Salt2FilesSpec
