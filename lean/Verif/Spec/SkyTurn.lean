import Verif.Spec.ObsTable
import Verif.Model.Footprint
import Verif.Model.Simulate

/-!
# Specification vocabulary for places on the sky (C138)
-/

namespace LCL.SkyTurn
open LCL LCL.ObsSpec

/-- Two (RA, Dec) pairs, in degrees, name the same place: they differ by whole turns in RA, or are the same pole. -/
def SamePlace (q q' : ℝ × ℝ) : Prop :=
  q'.2 = q.2 ∧ ((∃ n : ℤ, q'.1 = q.1 + 360 * n) ∨ q.2 = 90 ∨ q.2 = -90)

/-- An RA turned by `d` degrees, up to whole turns. -/
def Turned (d x y : ℝ) : Prop := ∃ n : ℤ, y = x + d + 360 * n

/-- The table `t'` holds the visits of `t` with every pointing turned by `d` degrees in RA (up to whole turns). -/
structure TurnedTable (d : ℝ) (t t' : ObsTable) : Prop where
  ra : ∀ i, (num t "ra".toList i = none ∧ num t' "ra".toList i = none) ∨
    ∃ x y, num t "ra".toList i = some x ∧ num t' "ra".toList i = some y ∧ Turned d x y
  dec : ∀ i, num t' "dec".toList i = num t "dec".toList i
  time : ∀ i, num t' "time".toList i = num t "time".toList i
  rotation : ∀ i, num t' "rotation".toList i = num t "rotation".toList i

/-- The table has no detector footprint, or that of a `DetectorFootprint`. -/
def HasFootprint (t : ObsTable) (fp : Option Footprint) : Prop := t.footprint = fp.map fun f => f.containsAt

/-- The points asked for: one by two numbers, or several by two arrays. -/
inductive Asks : ObsTable.QArg → ObsTable.QArg → List (ℝ × ℝ) → Prop
  | point (a d : ℝ) : Asks (.scalar a) (.scalar d) [(a, d)]
  | points (qs : List (ℝ × ℝ)) : Asks (.arr (qs.map fun q => some q.1)) (.arr (qs.map fun q => some q.2)) qs

/-- Two objects that differ only in how their place is written. -/
def SameObject (s s' : SimState) : Prop :=
  s'.state = s.state ∧ s'.t0 = s.t0 ∧ ((s'.ra = s.ra ∧ s'.dec = s.dec) ∨
    ∃ a b d, s.ra = some a ∧ s'.ra = some b ∧ s.dec = some d ∧ s'.dec = some d ∧ SamePlace (a, d) (b, d))

end LCL.SkyTurn
