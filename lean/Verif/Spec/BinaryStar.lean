import Mathlib.MeasureTheory.Measure.Lebesgue.Complex
import Mathlib.Analysis.SpecialFunctions.Trigonometric.Basic
import Mathlib.Analysis.SpecialFunctions.Exp

/-!
# Specification of an eclipsing binary

Two spheres on a circular orbit, seen from far away along the third axis. Nothing here refers to the model of the code.
-/

namespace LCL.BinarySpec
open MeasureTheory Metric Real

/-- A point of space: two coordinates on the sky and the height towards the observer. -/
structure Point where
  x : ℝ
  y : ℝ
  z : ℝ

/-- The point of the sky at which something is seen. -/
def Point.sky (p : Point) : ℂ := ⟨p.x, p.y⟩

def dot (p q : Point) : ℝ := p.x * q.x + p.y * q.y + p.z * q.z

/-- The direction to the observer. -/
def observer : Point := ⟨0, 0, 1⟩

/-- The axis of an orbit inclined by `i` (radians): `i` is its angle with the direction to the observer. -/
noncomputable def axis (i : ℝ) : Point := ⟨0, sin i, cos i⟩

/-- The secondary relative to the primary, at the fraction `phase` of the orbit after the primary minimum: it runs on a circle of radius `a`
perpendicular to the axis, from the point of the orbit nearest to the observer. -/
noncomputable def secondary (a i phase : ℝ) : Point :=
  ⟨a * sin (2 * π * phase), -(a * cos (2 * π * phase) * cos i), a * cos (2 * π * phase) * sin i⟩

/-- A star: where it is, and its radius. -/
structure Star where
  pos : Point
  radius : ℝ

/-- What is seen of one star: its disc, without the disc of the other one if that is nearer. -/
def seen (s other : Star) : Set ℂ :=
  {w | w ∈ closedBall s.pos.sky s.radius ∧ ¬ (s.pos.z < other.pos.z ∧ w ∈ closedBall other.pos.sky other.radius)}

/-- The area of the sky on which a star is seen. -/
noncomputable def seenArea (s other : Star) : ℝ := (volume (seen s other)).toReal

/-- Planck's law: the intensity per unit of frequency of a black body at the wavelength `lam` (cm), in erg/s/cm²/Hz/sr, with the constants of Planck and
Boltzmann and the speed of light in CGS units. -/
noncomputable def planck (temp lam : ℝ) : ℝ :=
  2 * 6.62607015e-27 * 2.99792458e10 / lam ^ 3 / (exp (6.62607015e-27 * 2.99792458e10 / (lam * 1.380649e-16 * temp)) - 1)

/-- The flux density (nJy) of two black bodies at a distance of `dist` parsecs at the wavelength `lam` (cm): the light of a uniform disc is its intensity times
the solid angle it fills. Lengths of the stars are in cm; 1e32 nJy are 1 erg/s/cm²/Hz. -/
noncomputable def flux (s1 s2 : Star) (temp1 temp2 dist lam : ℝ) : ℝ :=
  (planck temp1 lam * seenArea s1 s2 + planck temp2 lam * seenArea s2 s1) / (dist * (648000 / π * 1.495978707e13)) ^ 2 * 1e32

/-- The orbit of the specification: at every phase the secondary is at the distance `a`, in the plane perpendicular to an axis that makes the angle `i`
with the line of sight; at phase 0 it is in conjunction, in front of the primary. -/
theorem orbit_spec (a i phase : ℝ) :
    dot (secondary a i phase) (secondary a i phase) = a ^ 2 ∧ dot (secondary a i phase) (axis i) = 0 ∧ dot (axis i) observer = cos i ∧
    dot (axis i) (axis i) = 1 ∧ (secondary a i 0).x = 0 ∧ (secondary a i 0).z = a * sin i ∧
    dot (secondary a i 0) (secondary a i phase) = a ^ 2 * cos (2 * π * phase) := by
  have h1 := sin_sq_add_cos_sq (2 * π * phase)
  have h2 := sin_sq_add_cos_sq i
  refine ⟨?_, ?_, ?_, ?_, ?_, ?_, ?_⟩ <;> simp only [dot, secondary, axis, observer, mul_zero, sin_zero, cos_zero, mul_one]
  · have : cos i ^ 2 = 1 - sin i ^ 2 := by linarith
    have h3 : sin (2 * π * phase) ^ 2 = 1 - cos (2 * π * phase) ^ 2 := by linarith
    linear_combination a ^ 2 * h3 + a ^ 2 * cos (2 * π * phase) ^ 2 * this
  · ring
  · ring
  · linarith
  · linear_combination a ^ 2 * cos (2 * π * phase) * h2

end LCL.BinarySpec
