import Verif.Spec.ObsTable
import Verif.Spec.Footprint
import Verif.Model.Footprint

/-!
# Specification vocabulary for surveys with a rectangular detector (C150)
-/

namespace LCL.RectSpec
open LCL LCL.ObsSpec LCL.FootprintSpec Real

/-- The point falls on a rectangular detector, `width` by `height` degrees, that points to `(ra0, dec0)` and is turned by `rotation` degrees: it is in front of the detector and its offsets
along the detector's axes in the tangent plane, in degrees, are less than half the width and half the height. -/
def OnDetector (width height ra dec ra0 dec0 rotation : ℝ) : Prop :=
  0 < dot (direction ra dec) (direction ra0 dec0) ∧
    |dot (direction ra dec) (detX ra0 dec0 rotation) / dot (direction ra dec) (direction ra0 dec0) * (180 / π)| < width / 2 ∧
    |dot (direction ra dec) (detY ra0 dec0 rotation) / dot (direction ra dec) (direction ra0 dec0) * (180 / π)| < height / 2

/-- The survey's detector is the rectangle that `from_rect` makes with some pixel scale. -/
def RectSurvey (t : ObsTable) (width height : ℝ) : Prop :=
  ∃ (s : ℝ) (fp : Footprint), 0 < width ∧ 0 < height ∧ 0 < s ∧ Footprint.fromRect width height (some s) = .ok fp ∧ t.footprint = some fp.containsAt

/-- Row `i` of the survey is a visit within the time bounds whose detector covers the point. -/
def Covers (t : ObsTable) (width height : ℝ) (q : ℝ × ℝ) (lo hi : Option ℝ) (i : Nat) : Prop :=
  ∃ ra dec, num t "ra".toList i = some ra ∧ num t "dec".toList i = some dec ∧ OnDetector width height q.1 q.2 ra dec ((num t "rotation".toList i).getD 0) ∧
    (∀ b, lo = some b → ∃ tm, num t "time".toList i = some tm ∧ b ≤ tm) ∧
    (∀ b, hi = some b → ∃ tm, num t "time".toList i = some tm ∧ tm ≤ b)

end LCL.RectSpec
