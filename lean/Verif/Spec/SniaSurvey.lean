import Verif.Spec.FullRun
import Verif.Model.SniaSurvey

/-!
# Specification vocabulary for a survey of supernovae (C122)
-/

namespace LCL.SniaSurveySpec
open LCL

/-- The sncosmo source gives, whatever else it is asked for, the F_lambda `Fl params phase wave`. -/
def PointSource (lib : Sn.Lib) (Fl : (Name → ℝ) → ℝ → ℝ → ℝ) : Prop :=
  ∀ params phases waves, lib.flux params phases waves = .ok (phases.map fun ph => waves.map (Fl params ph))

/-- The parameters of a SALT model. -/
def saltParams (others : Name → ℝ) (x0 x1 c : ℝ) : Name → ℝ := fun n =>
  if n = "x0".toList then x0 else if n = "x1".toList then x1 else if n = "c".toList then c else others n

/-- The F_nu in nJy at wavelength `w` (in Angstrom) that an F_lambda in erg/s/cm^2/AA stands for. -/
noncomputable def nanojansky (flam w : ℝ) : ℝ := 10 ^ 35 * (flam * 10 ^ 7 * (w / 10 ^ 10) ^ 2 / 299792458)

/-- The spectrum of a supernova at redshift `z` with peak time `t0` as seen at time `t` and wavelength `w`: the source at the time since the peak and the wavelength in its own frame, times
`1 + z`; zero where the source gives no flux. -/
noncomputable def supernova (lib : Sn.Lib) (Fl : (Name → ℝ) → ℝ → ℝ → ℝ) (params : Name → ℝ) (z t0 t w : ℝ) : ℝ :=
  open Classical in
  if lib.minwave ≤ w / (1 + z) ∧ w / (1 + z) ≤ lib.maxwave then (1 + z) * nanojansky (Fl params ((t - t0) / (1 + z)) (w / (1 + z))) (w / (1 + z)) else 0

/-- The parameters of the wrapper's node that sncosmo is given are x0, x1 and c, and the source has them. -/
structure Salt (lib : Sn.Lib) (m : Sn.Obj) : Prop where
  node : m.node = "source".toList
  named : ∀ n, n ∈ m.named ↔ n = "x0".toList ∨ n = "x1".toList ∨ n = "c".toList
  known : ∀ n ∈ m.named, n ∈ lib.names
  extrap : m.extrap = none
  range : lib.minwave ≤ lib.maxwave

end LCL.SniaSurveySpec
