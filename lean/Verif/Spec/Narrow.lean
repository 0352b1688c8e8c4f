import Verif.Spec.EndToEnd

/-!
# Specification vocabulary for narrowing a survey (C133)
-/

namespace LCL.NarrowSpec
open LCL LCL.ObsSpec LCL.SimSpec LCL.EndToEnd

/-- The columns of a lightcurve no random number enters. -/
def perfectCols : List Name := ["mjd".toList, "filter".toList, "flux_perfect".toList, "fluxerr".toList, "survey_idx".toList]

/-- `obs` lists, in order of survey and row, the observations (survey, row) of the object: those whose pointing, time and footprint match it. -/
def ObservationsOf (args : List SurveyArg) (offset : Option (List (Option ℝ))) (s : SimState) (ra dec : ℝ) (obs : List (Nat × Nat)) : Prop :=
  s.ra = some ra ∧ s.dec = some dec ∧ obs.Pairwise (fun x y => x.1 < y.1 ∨ x.1 = y.1 ∧ x.2 < y.2) ∧
  ∀ j q, (j, q) ∈ obs ↔ ∃ a rad, args[j]? = some a ∧ a.table.radius = some rad ∧
    Match a.table (ra, dec) rad (winLo offset s.t0) (winHi offset s.t0) q

/-- The same survey with another table. -/
def withTable (a : SurveyArg) (t : ObsTable) : SurveyArg := ⟨a.kind, t, a.group⟩

/-- A flux rule that allows one flux for every filter and time. -/
def OneFlux (P : PassbandGroup ℝ → SState ℝ → Name → ℝ → ℝ → Prop) : Prop := ∀ g st f t x y, P g st f t x → P g st f t y → x = y

open Classical in
/-- A reported time lies between `lo` and `hi`, ends included. -/
noncomputable def between (lo hi : ℝ) : NCell → Bool
  | .num t => decide (lo ≤ t ∧ t ≤ hi)
  | _ => false

/-- A reported survey number is one of the first `n`. -/
def fromFirst (n : Nat) : NCell → Bool
  | .survey j => decide (j < n)
  | _ => false

/-- The pointing of the observation lies within the given radius (in degrees) of the position. -/
def PointsWithin (args : List SurveyArg) (radii : List ℝ) (pos : ℝ × ℝ) (x : Nat × Nat) : Prop :=
  ∃ a rad ra dec, args[x.1]? = some a ∧ radii[x.1]? = some rad ∧ num a.table "ra".toList x.2 = some ra ∧ num a.table "dec".toList x.2 = some dec ∧
    sep pos.1 pos.2 ra dec ≤ rad * (Real.pi / 180)

/-- The position lies on the detector of the observation: in the survey's footprint, if it has one, placed at the pointing and turned by its rotation. -/
def OnDetector (args : List SurveyArg) (pos : ℝ × ℝ) (x : Nat × Nat) : Prop :=
  ∃ a ra dec, args[x.1]? = some a ∧ num a.table "ra".toList x.2 = some ra ∧ num a.table "dec".toList x.2 = some dec ∧
    ∀ fp, a.table.footprint = some fp → fp pos.1 pos.2 ra dec (num a.table "rotation".toList x.2) = true

/-- The ordinary conditions on a simulation: there is a survey; the model, asked for fluxes, gives those `P` allows, one for every time asked, and draws no random numbers;
the tables are reachable ones with a radius between 0 and 180 degrees; the extra columns have names of their own. -/
def Ready {R : Type} (ev : PassbandGroup ℝ → List ℝ → List Name → SState ℝ → R → Except Err (List ℝ × R)) (P : PassbandGroup ℝ → SState ℝ → Name → ℝ → ℝ → Prop)
    (states : List SimState) (args : List SurveyArg) (saveCols : List Name) : Prop :=
  args ≠ [] ∧ (∀ s ∈ states, ∀ a ∈ args, EndToEndSpec.Fluxes (ev a.group) s.state (P a.group s.state)) ∧ (∀ a ∈ args, Built a.table) ∧
  (∀ a ∈ args, ∃ rad, a.table.radius = some rad ∧ 0 ≤ rad ∧ rad ≤ 180) ∧ (saveCols.Nodup ∧ ∀ c ∈ saveCols, c ∉ baseCols) ∧
  ∀ g ts fs st r p r', ev g ts fs st r = .ok (p, r') → p.length = ts.length

end LCL.NarrowSpec
