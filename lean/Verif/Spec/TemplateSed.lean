import Verif.Model.TemplateSed

/-!
# What is said about template models and their passbands (C50)
-/

namespace LCL.TemplateSedSpec
open LCL

/-- A Python dictionary of curves has no repeated key. -/
def ProperSource : LcSource → Prop
  | .dict d => d.keys.Nodup
  | _ => True

/-- The passband of a filter lets a significant part (more than `1e-5` of the normalised transmission) of the wavelength `w` through. -/
def Significant (g : PassbandGroup ℝ) (f : Name) (w : ℝ) : Prop :=
  ∃ pb T, g.getItem f = .ok pb ∧ (w, T) ∈ pb.table ∧ 1 / 10 ^ 5 < T

/-- No filter lets through, faintly, a wavelength significant in another filter. -/
def NoLeak (g : PassbandGroup ℝ) (filters : List Name) : Prop :=
  ∀ f ∈ filters, ∀ f' ∈ filters, f' ≠ f → ∀ pb, g.getItem f = .ok pb → ∀ w T, (w, T) ∈ pb.table →
    T ≤ 1 / 10 ^ 5 → Significant g f' w → T = 0

/-- The wavelength is significant in this filter and in no other of the list. -/
def Only (g : PassbandGroup ℝ) (fs : List Name) (f : Name) (w : ℝ) : Prop :=
  Significant g f w ∧ ∀ f' ∈ fs, f' ≠ f → ¬ Significant g f' w

open Classical in
/-- The spectrum that is one at the wavelengths significant to this filter only, zero elsewhere. -/
noncomputable def ind (g : PassbandGroup ℝ) (fs : List Name) (f : Name) (w : ℝ) : ℝ := if Only g fs f w then 1 else 0

end LCL.TemplateSedSpec
