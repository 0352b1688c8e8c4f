import Mathlib.Analysis.SpecialFunctions.Trigonometric.Inverse

/-!
# Directions on the sky

Written independently of the model: unit vectors for right ascension and declination in degrees.
-/

namespace LCL.Sky

/-- Degrees to radians. -/
noncomputable def rad (x : ℝ) : ℝ := x * Real.pi / 180

/-- The unit vector of a direction. -/
noncomputable def dir (ra dec : ℝ) : ℝ × ℝ × ℝ :=
  (Real.cos (rad dec) * Real.cos (rad ra), Real.cos (rad dec) * Real.sin (rad ra), Real.sin (rad dec))

/-- The unit vector that points north from a direction (towards growing declination). -/
noncomputable def north (ra dec : ℝ) : ℝ × ℝ × ℝ :=
  (-Real.sin (rad dec) * Real.cos (rad ra), -Real.sin (rad dec) * Real.sin (rad ra), Real.cos (rad dec))

/-- The unit vector that points east from a direction (towards growing right ascension). -/
noncomputable def east (ra : ℝ) : ℝ × ℝ × ℝ := (-Real.sin (rad ra), Real.cos (rad ra), 0)

/-- The scalar product. -/
def dot (a b : ℝ × ℝ × ℝ) : ℝ := a.1 * b.1 + a.2.1 * b.2.1 + a.2.2 * b.2.2

/-- The angle between two unit vectors, in radians. -/
noncomputable def angle (a b : ℝ × ℝ × ℝ) : ℝ := Real.arccos (dot a b)

/-- The direction reached from `(ra, dec)` by walking the angle `d` along the great circle that starts with bearing `b` (from north towards east). -/
noncomputable def walk (ra dec b d : ℝ) : ℝ × ℝ × ℝ :=
  let u := dir ra dec
  let n := north ra dec
  let e := east ra
  (Real.cos d * u.1 + Real.sin d * (Real.cos b * n.1 + Real.sin b * e.1),
   Real.cos d * u.2.1 + Real.sin d * (Real.cos b * n.2.1 + Real.sin b * e.2.1),
   Real.cos d * u.2.2 + Real.sin d * (Real.cos b * n.2.2 + Real.sin b * e.2.2))

end LCL.Sky
