import Verif.Model.Physical
import Mathlib.Analysis.SpecialFunctions.Trigonometric.Inverse
import Mathlib.Algebra.Order.Floor.Ring

/-!
# Model of `PeriodicModel` and `EclipsingBinaryStar` (`src/lightcurvelynx/models/periodic_model.py`, `periodic_variable_star.py`)

Numbers are real.
-/

namespace LCL

/-- `a % b` of floats, for `b ≠ 0`. -/
noncomputable def pyMod (a b : ℝ) : ℝ := a - b * ⌊a / b⌋

/-- periodic_model.py:74: the phase of one time; NaN (`none`) if the period is zero. -/
noncomputable def phaseOf (t0 period t : ℝ) : Option ℝ :=
  open Classical in if period = 0 then none else some (pyMod (t - t0) period / period)

/-- A numeric parameter of a node: KeyError if it is missing, TypeError if it is not a number. -/
def numParam {K : Type} (p : Params K) (k : Name) : Except Err K :=
  match p.get? k with
  | none => .error .keyError
  | some (.num x) => .ok x
  | some _ => .error .typeError

/-- periodic_model.py:53-77 `PeriodicModel.compute_sed`; `evalPhases` is the subclass's `_evaluate_phases`. -/
noncomputable def periodicSed {W : Type} (node : Name) (evalPhases : W → SState ℝ → List (Option ℝ) → List ℝ → Except Err (Mat ℝ))
    (kw : W) (st : SState ℝ) (times waves : List ℝ) : Except Err (Mat ℝ) :=
  match localParams st node with
  | .error e => .error e
  | .ok p => match numParam p "period".toList with
    | .error e => .error e
    | .ok period => match numParam p t0Key with
      | .error e => .error e
      | .ok t0 => evalPhases kw st (times.map (phaseOf t0 period)) waves

/-- periodic_variable_star.py:202-221 `_norm_star_center_distance`. -/
noncomputable def centerDistance (phase inclination : ℝ) : ℝ :=
  Real.sqrt ((Real.cos (inclination * Real.pi / 180) * Real.cos (2 * Real.pi * phase)) ^ 2 + Real.sin (2 * Real.pi * phase) ^ 2)

/-- periodic_variable_star.py:257-268: the area of the lens. For circles that meet this is the formula of the code;
where a division or an arccos gives NaN, the value is overwritten below. -/
noncomputable def lensArea (d r1 r2 : ℝ) : ℝ :=
  r1 ^ 2 * Real.arccos ((d ^ 2 + r1 ^ 2 - r2 ^ 2) / (2 * r1 * d)) + r2 ^ 2 * Real.arccos ((d ^ 2 + r2 ^ 2 - r1 ^ 2) / (2 * r2 * d)) -
    r1 * d * Real.sin (Real.arccos ((d ^ 2 + r1 ^ 2 - r2 ^ 2) / (2 * r1 * d)))

open Classical in
/-- periodic_variable_star.py:223-278 `_circle_overlap_area`. -/
noncomputable def overlapArea (d r1 r2 : ℝ) : ℝ :=
  if d ≥ r1 + r2 then 0
  else if d ≤ |r1 - r2| then Real.pi * (min r1 r2) ^ 2
  else if lensArea d r1 r2 ≥ 0 then lensArea d r1 r2 else 0

/-- The parameters of an eclipsing binary. -/
structure Binary where
  semiaxis : ℝ
  inclination : ℝ
  r1 : ℝ
  r2 : ℝ

open Classical in
/-- periodic_variable_star.py:196-198. -/
noncomputable def clip0 (x : ℝ) : ℝ := if x ≥ 0 then x else 0

open Classical in
/-- periodic_variable_star.py:178-200: the luminosity of the binary at one phase, given the luminosities of the stars at
one wavelength (`black_body_luminosity_density_per_solid`, lines 171-176). -/
noncomputable def binaryLum (b : Binary) (lum1 lum2 phase : ℝ) : ℝ :=
  let overlap := overlapArea (b.semiaxis * centerDistance phase b.inclination) b.r1 b.r2
  let ratio1 := if phase < 1 / 4 ∨ phase > 3 / 4 then overlap / (Real.pi * b.r1 ^ 2) else 0
  let ratio2 := if ¬ (phase < 1 / 4 ∨ phase > 3 / 4) then overlap / (Real.pi * b.r2 ^ 2) else 0
  clip0 (lum1 * (1 - ratio1)) + clip0 (lum2 * (1 - ratio2))

/-- periodic_variable_star.py:37-59 `PeriodicVariableStar._evaluate_phases` for one phase and wavelength: `k` is the
conversion to nJy. -/
noncomputable def starFlux (k distanceCm lum : ℝ) : ℝ := lum / distanceCm ^ 2 * k

end LCL
