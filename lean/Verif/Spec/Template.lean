import Verif.Model.Template

/-!
# What is said about lightcurve templates (C49)
-/

namespace LCL.TemplateSpec
open LCL

/-- The rows (time, value) the user gave for a filter. -/
def DataOf (source : LcSource) (f : Name) (rows : List (ℝ × ℝ)) : Prop :=
  match source with
  | .dict d => ∃ lc, d.get? f = some lc ∧ rows = lc.rows
  | .array _ all => rows ≠ [] ∧ rows = (all.filter fun r => decide (r.2.2 = f)).map fun r => (r.1, r.2.1)
  | .other => False

/-- `v` is the value at time `t` of the straight lines through the converted values of the rows. -/
def OnCurve (rows : List (ℝ × ℝ)) (conv : ℝ → ℝ) (t v : ℝ) : Prop :=
  (∃ (i : Nat) (p q : ℝ × ℝ), rows[i]? = some p ∧ rows[i + 1]? = some q ∧ p.1 ≤ t ∧ t ≤ q.1 ∧
    v = conv p.2 + (conv q.2 - conv p.2) * ((t - p.1) / (q.1 - p.1))) ∨
  ∃ p, rows = [p] ∧ t = p.1 ∧ v = conv p.2

/-- The time is before the first or after the last row. -/
def Outside (rows : List (ℝ × ℝ)) (t : ℝ) : Prop :=
  (∃ p, rows.head? = some p ∧ t < p.1) ∨ ∃ p, rows.getLast? = some p ∧ p.1 < t

/-- Values are converted when they are magnitudes. -/
noncomputable def conv (mags : Bool) : ℝ → ℝ := fun x => if mags then mag2flux x else x

/-- The flux at a time: the baseline outside the rows, the curve inside. -/
def FluxAt (rows : List (ℝ × ℝ)) (c : ℝ → ℝ) (base t v : ℝ) : Prop :=
  (Outside rows t → v = base) ∧ (¬ Outside rows t → OnCurve rows c t v)

end LCL.TemplateSpec
