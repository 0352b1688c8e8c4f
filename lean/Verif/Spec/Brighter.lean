import Verif.Spec.EndToEnd

/-!
# Vocabulary for comparing sources in one survey (C140)
-/

namespace LCL.BrighterSpec
open LCL LCL.PassbandSpec LCL.EndToEndSpec LCL.EndToEnd

/-- A passband as the constructor makes it: increasing wavelengths, transmissions that are not negative and of integral one. -/
structure Normal (pb : Passband ℝ) : Prop where
  increasing : pb.waves.IsChain (· < ·)
  trans : ∀ p ∈ pb.table, 0 ≤ p.2
  area : area pb.table = 1

/-- At all times, and at all wavelengths of the passbands of the surveys, the first spectrum is at most the second. -/
def Fainter (args : List SurveyArg) (H H' : ℝ → ℝ → ℝ) : Prop :=
  ∀ a ∈ args, ∀ f pb, a.group.getItem f = .ok pb → ∀ t, ∀ w ∈ pb.waves, H t w ≤ H' t w

/-- Entry `i` of a column is this number. -/
def At (col : List NCell) (i : Nat) (x : ℝ) : Prop := col[i]? = some (.num x)

/-- The zero points of the survey's rows are positive. -/
def PositiveZp (a : SurveyArg) : Prop := ∀ q n, NoiseOf a.kind a.table q n → 0 < n.zp

end LCL.BrighterSpec
