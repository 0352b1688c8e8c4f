import Verif.Spec.Narrow

/-!
# Specification vocabulary for comparing simulations (C135, C136)
-/

namespace LCL.RearrangeSpec
open LCL LCL.ObsSpec LCL.SimSpec LCL.EndToEnd LCL.NarrowSpec

/-- The noise-free part of the entries of a lightcurve: time, filter, perfect flux and error of every observation. -/
def measurements (col : Name → List NCell) : List (NCell × NCell × NCell × NCell) :=
  (col "mjd".toList).zip ((col "filter".toList).zip ((col "flux_perfect".toList).zip (col "fluxerr".toList)))

/-- One visit: what a row of a survey table says, with the survey it belongs to. -/
structure Visit where
  kind : Kind
  passbands : PassbandGroup ℝ
  footprint : Option (ℝ → ℝ → ℝ → ℝ → Option ℝ → Bool)
  surveyValue : Name → Option SVal
  cell : Name → Option Cell
  entry : Name → Option Cell

/-- Row `q` of a survey. -/
def visit (a : SurveyArg) (q : Nat) : Visit :=
  ⟨a.kind, a.group, a.table.footprint, fun key => a.table.survey.get? key, fun name => ObsSpec.cell a.table name q, fun name => entryOf a.table name q⟩

/-- The visits of one survey, row by row. -/
def visitsOf (a : SurveyArg) : List Visit := (List.range a.table.len).map (visit a)

/-- The visits of all surveys. -/
def visits (args : List SurveyArg) : List Visit := args.flatMap visitsOf

/-- The table `t'` holds the rows of `t` in the order `idx`. -/
def Reordered (idx : List Nat) (t' t : ObsTable) : Prop :=
  idx.Perm (List.range t.len) ∧ t'.len = t.len ∧ t'.footprint = t.footprint ∧ t'.survey = t.survey ∧ t'.invColmap = t.invColmap ∧
  ∀ name, t'.cols.get? name = (t.cols.get? name).map fun c => idx.filterMap fun i => c[i]?

/-- The table `t` holds the rows of `t1` followed by those of `t2`. -/
def Joined (t t1 t2 : ObsTable) : Prop :=
  t.len = t1.len + t2.len ∧ (t1.footprint = t.footprint ∧ t2.footprint = t.footprint) ∧ (t1.survey = t.survey ∧ t2.survey = t.survey) ∧
  (t1.invColmap = t.invColmap ∧ t2.invColmap = t.invColmap) ∧
  ∀ name, (t.cols.get? name = none ∧ t1.cols.get? name = none ∧ t2.cols.get? name = none) ∨
    ∃ c1 c2, t1.cols.get? name = some c1 ∧ t2.cols.get? name = some c2 ∧ t.cols.get? name = some (c1 ++ c2)

end LCL.RearrangeSpec
