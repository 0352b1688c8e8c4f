import Verif.Model.BayesnSed
import Verif.Spec.Physical

/-!
# Specification vocabulary for BayeSN spectra (C146)
-/

namespace LCL.BayesnSedSpec
open LCL LCL.BayesnSed

/-- The parameters of a BayeSN supernova. -/
structure Sn where
  t0 : ℝ
  theta : ℝ
  av : ℝ
  rv : ℝ
  amplitude : ℝ

/-- They are the values in the parameters of the model. -/
def Sn.In (s : Sn) (p : Params ℝ) : Prop :=
  p.get? "t0".toList = some (.num s.t0) ∧ p.get? "theta".toList = some (.num s.theta) ∧ p.get? "Av".toList = some (.num s.av) ∧ p.get? "Rv".toList = some (.num s.rv) ∧
    p.get? "Amplitude".toList = some (.num s.amplitude)

/-- Knots a spline can be put through. -/
def Knots (x : List ℝ) : Prop := 2 ≤ x.length ∧ x.Pairwise (· < ·)

/-- `flux` (in nJy) is the flux density per wavelength `flam` (in erg/s/cm²/Å) at the wavelength `w` (in Å): both in SI units, f_ν = f_λ w² / c. -/
def SameFlux (flux flam w : ℝ) : Prop := flux / 10 ^ 35 = flam * 10 ^ 7 * (w / 10 ^ 10) ^ 2 / 299792458

/-- Spectra a model gives: one row per time, one entry per wavelength, with the entry for time `t` and wavelength `w` what `P t w` allows. -/
def Gives (out : Except Err (Mat ℝ)) (times waves : List ℝ) (P : ℝ → ℝ → ℝ → Prop) : Prop :=
  ∃ a, out = .ok a ∧ a.length = times.length ∧ (∀ row ∈ a, row.length = waves.length) ∧
    ∀ (i j : Nat) t w, times[i]? = some t → waves[j]? = some w → P t w ((a.getD i []).getD j 0)

end LCL.BayesnSedSpec
