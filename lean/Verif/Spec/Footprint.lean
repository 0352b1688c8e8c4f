import Verif.Model.Footprint

/-!
# What is said about detector footprints (C53)
-/

namespace LCL.FootprintSpec
open LCL Real

/-- An array has as many entries as its shape says. -/
def Proper (a : NpArg) : Prop := a.atleast1d.data.length = a.atleast1d.shape.prod

/-- The array can be paired with points of the given shape: it has that shape, or it is a single number. -/
def Fits (shape : List Nat) (a : NpArg) : Prop := a.atleast1d.shape = shape ∨ a.atleast1d.shape = [1]

/-- The value paired with the `i`-th point: the `i`-th one, or the only one. -/
def Paired (shape : List Nat) (a : NpArg) (i : Nat) (x : ℝ) : Prop :=
  (a.atleast1d.shape = shape ∧ a.atleast1d.data[i]? = some x) ∨
  (a.atleast1d.shape ≠ shape ∧ a.atleast1d.shape = [1] ∧ a.atleast1d.data[0]? = some x)

/-- The rotation paired with the `i`-th point (none when no rotation is given). -/
def PairedRot (shape : List Nat) (a : Option NpArg) (i : Nat) (x : Option ℝ) : Prop :=
  match a, x with
  | none, none => True
  | some a, some x => Paired shape a i x
  | _, _ => False

def dot (u v : ℝ × ℝ × ℝ) : ℝ := u.1 * v.1 + u.2.1 * v.2.1 + u.2.2 * v.2.2

/-- The direction of a point of the sky (degrees). -/
noncomputable def direction (ra dec : ℝ) : ℝ × ℝ × ℝ :=
  (cos (dec * (π / 180)) * cos (ra * (π / 180)), cos (dec * (π / 180)) * sin (ra * (π / 180)), sin (dec * (π / 180)))

/-- East and north at a point of the sky. -/
noncomputable def east (ra : ℝ) : ℝ × ℝ × ℝ := (-sin (ra * (π / 180)), cos (ra * (π / 180)), 0)
noncomputable def north (ra dec : ℝ) : ℝ × ℝ × ℝ :=
  (-sin (dec * (π / 180)) * cos (ra * (π / 180)), -sin (dec * (π / 180)) * sin (ra * (π / 180)), cos (dec * (π / 180)))

def lin (a : ℝ) (u : ℝ × ℝ × ℝ) (b : ℝ) (v : ℝ × ℝ × ℝ) : ℝ × ℝ × ℝ := (a * u.1 + b * v.1, a * u.2.1 + b * v.2.1, a * u.2.2 + b * v.2.2)

/-- The detector's own axes: its x axis and its y axis on the sky. With rotation 0 they point east and north; the y axis of a rotated
detector has the rotation as its position angle (from north towards east). -/
noncomputable def detX (ra0 dec0 rotation : ℝ) : ℝ × ℝ × ℝ :=
  lin (cos (rotation * (π / 180))) (east ra0) (-sin (rotation * (π / 180))) (north ra0 dec0)
noncomputable def detY (ra0 dec0 rotation : ℝ) : ℝ × ℝ × ℝ :=
  lin (sin (rotation * (π / 180))) (east ra0) (cos (rotation * (π / 180))) (north ra0 dec0)

end LCL.FootprintSpec
