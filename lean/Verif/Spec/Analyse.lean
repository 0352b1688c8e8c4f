import Verif.Model.Analyse
import Verif.Spec.PostProcess
import Verif.Spec.FullRun
import Verif.Spec.EndToEnd

/-!
# Specification vocabulary for the analysis of simulated lightcurves (C142)
-/

namespace LCL.AnalyseSpec
open LCL LCL.PostSpec LCL.EndToEnd LCL.EndToEndSpec LCL.SimSpec LCL.PhotSpec

/-- Entry `i` of the column `name` of the lightcurve in row `k` of a result table. -/
def cellAt (r : NFrame) (k : Nat) (name : String) (i : Nat) : Option PCell :=
  match r.lc with
  | none => none
  | some lc => match lc.counts[k]? with
    | none => none
    | some c => if i < c then entry lc.flat name.toList ((lc.counts.take k).sum + i) else none

/-- What the analysis says of an observation with a positive flux `f` and error `e`: signal to noise, detection from the threshold on, AB magnitude (fluxes are in nJy) and
its error. -/
def Graded (r : NFrame) (k i : Nat) (minSnr f e : ℝ) : Prop :=
  cellAt r k "snr" i = some (.num (f / e)) ∧ (∃ b, cellAt r k "detection" i = some (.flag b) ∧ (b = true ↔ minSnr ≤ f / e)) ∧
  cellAt r k "mag" i = some (.num (31.4 - 2.5 * Real.logb 10 f)) ∧ cellAt r k "magerr" i = some (.num (2.5 / Real.log 10 * (e / f)))

/-- No signal to noise and no magnitude. -/
def Ungraded (r : NFrame) (k i : Nat) : Prop :=
  cellAt r k "snr" i = some .missing ∧ cellAt r k "mag" i = some .missing ∧ cellAt r k "magerr" i = some .missing

/-- Entry `i` of the lightcurve in row `k` of the analysed table is the measurement, in row `q` of survey `j`, of a flux that `P` (of filter, time and flux) allows, with the
standard normal number `eps` as its noise, and it is graded by its measured flux and error if they are positive. -/
def Analysed (a : SurveyArg) (j q : Nat) (P : Name → ℝ → ℝ → Prop) (eps minSnr : ℝ) (r : NFrame) (k i : Nat) : Prop :=
  ∃ (t : ℝ) (f : Name) (x : ℝ) (noise : NoiseArgs) (err : ℝ),
    entryOf a.table "time".toList q = some (.num t) ∧ entryOf a.table "filter".toList q = some (.str f) ∧ P f t x ∧
    NoiseOf a.kind a.table q noise ∧ err = √(totalVariance x noise) * noise.zp ∧
    cellAt r k "mjd" i = some (.num t) ∧ cellAt r k "filter" i = some (.text f) ∧ cellAt r k "flux_perfect" i = some (.num x) ∧
    cellAt r k "fluxerr" i = some (.num err) ∧ cellAt r k "flux" i = some (.num (x + err * eps)) ∧ cellAt r k "survey_idx" i = some (.num j) ∧
    (0 < x + err * eps ∧ 0 < err → Graded r k i minSnr (x + err * eps) err) ∧ (¬ (0 < x + err * eps ∧ 0 < err) → Ungraded r k i)

/-- The number of entries of the lightcurve in row `k`. -/
def entries (r : NFrame) (k : Nat) : Option Nat := r.lc.bind fun lc => lc.counts[k]?

end LCL.AnalyseSpec
