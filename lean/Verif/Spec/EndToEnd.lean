import Verif.Model.EndToEnd
import Verif.Spec.Physical
import Verif.Spec.Simulate
import Verif.Spec.Photometry
import Verif.Spec.Passband

/-!
# Specification vocabulary for the whole path (C110)
-/

namespace LCL.EndToEndSpec
open LCL LCL.PhysSpec LCL.PassbandSpec LCL.PhotSpec LCL.SimSpec LCL.ObsSpec LCL.EndToEnd Real

/-- `H` is the observer-frame spectrum of the model in the state `st`: asked for any times and any wavelengths, the model's SED evaluation gives `H t w`
and draws no random numbers. -/
def Observes {V W R : Type} (m : SEDModel V W R ℝ) (noKw : W) (st : SState ℝ) (H : ℝ → ℝ → ℝ) : Prop :=
  ∀ times waves r, waves ≠ [] → m.evaluateSingle noKw times waves st r noKw = .ok (times.map fun t => waves.map (H t), r)

/-- The same for the wavelengths of the passbands of a group only (an effect may be undefined elsewhere). -/
def ObservesIn {V W R : Type} (m : SEDModel V W R ℝ) (noKw : W) (st : SState ℝ) (g : PassbandGroup ℝ) (H : ℝ → ℝ → ℝ) : Prop :=
  ∀ f pb, g.getItem f = .ok pb → pb.waves ≠ [] → ∀ times r, m.evaluateSingle noKw times pb.waves st r noKw = .ok (times.map fun t => pb.waves.map (H t), r)

/-- Asked for the fluxes at some times in some filters, the model gives, for every time and filter, a flux `P` allows, or fails; it draws no random numbers. -/
def Fluxes {R : Type} (ev : List ℝ → List Name → SState ℝ → R → Except Err (List ℝ × R)) (st : SState ℝ) (P : Name → ℝ → ℝ → Prop) : Prop :=
  ∀ ts fs r p r', ev ts fs st r = .ok (p, r') → r' = r ∧ p.length = ts.length ∧ fs.length = ts.length ∧
    ∀ (i : Nat) t f x, ts[i]? = some t → fs[i]? = some f → p[i]? = some x → P f t x

/-- The passband's wavelengths are those of its table, and equally spaced by its step if it has one. -/
def ExactGrid (pb : Passband ℝ) : Prop :=
  pb.waves = pb.table.map (·.1) ∧ ∀ d, pb.deltaWave = some d → Steps (fun g => g = d) pb.waves

/-- The integral of the spectrum times the (normalised) transmission, by trapezoids. -/
noncomputable def bandIntegral (pb : Passband ℝ) (H : ℝ → ℝ) : ℝ := area (pb.table.map fun p => (p.1, H p.1 * p.2))

/-- What row `q` of a survey table contributes to the noise, with the documented formulas. -/
def NoiseOf (k : Kind) (t : ObsTable) (q : Nat) (a : NoiseArgs) : Prop :=
  match k with
  | .opsim => ∃ scale ro dark exptime nexp seeing sky zp,
      t.survey.get? "pixel_scale".toList = some (.num scale) ∧ t.survey.get? "read_noise".toList = some (.num ro) ∧
      t.survey.get? "dark_current".toList = some (.num dark) ∧ rowNum t "exptime".toList q = some exptime ∧ rowNum t "nexposure".toList q = some nexp ∧
      rowNum t "seeing".toList q = some seeing ∧ rowNum t "skybrightness".toList q = some sky ∧ rowNum t "zp".toList q = some zp ∧
      a = { exptime := exptime, count := nexp, psf := π / (2 * log 2) * (seeing / scale) ^ 2, sky := mag2flux sky * scale ^ 2 / zp, zp := zp,
            readout := .num ro, dark := dark }
  | .ztf => ∃ gain ro dark exptime fwhm sky zp,
      t.survey.get? "gain".toList = some (.num gain) ∧ t.survey.get? "read_noise".toList = some (.num ro) ∧
      t.survey.get? "dark_current".toList = some (.num dark) ∧ rowNum t "exptime".toList q = some exptime ∧ rowNum t "fwhm".toList q = some fwhm ∧
      rowNum t "sky".toList q = some sky ∧ rowNum t "zp".toList q = some zp ∧
      a = { exptime := exptime, count := 1, psf := π / (2 * log 2) * fwhm ^ 2, sky := sky * gain, zp := zp, readout := .num ro, dark := dark }
  | .roman => ∃ level dark exptime npix zodi thermal zp,
      t.survey.get? "zodi_level".toList = some (.num level) ∧ t.survey.get? "dark_current".toList = some (.num dark) ∧
      rowNum t "exptime".toList q = some exptime ∧ rowNum t "N_Eff_Pix".toList q = some npix ∧ rowNum t "zodi_countrate_min".toList q = some zodi ∧
      rowNum t "thermal_countrate".toList q = some thermal ∧ rowNum t "zp".toList q = some zp ∧
      a = { exptime := exptime, count := 1, psf := npix, sky := exptime * (level * zodi + thermal), zp := zp / exptime, readout := .func rampNoise,
            dark := dark }

/-- Entry `i` of the six standard columns `col` is the measurement in row `q` of survey `j` of a flux that `P` (of filter, time and flux) allows, with the standard normal
number `eps` as its noise. -/
def MeasuredBy (a : SurveyArg) (j q : Nat) (P : Name → ℝ → ℝ → Prop) (eps : ℝ) (col : Name → List NCell) (i : Nat) : Prop :=
  ∃ (t : ℝ) (f : Name) (x : ℝ) (noise : NoiseArgs) (err : ℝ),
    entryOf a.table "time".toList q = some (.num t) ∧ entryOf a.table "filter".toList q = some (.str f) ∧ P f t x ∧
    NoiseOf a.kind a.table q noise ∧ noise.zp ≠ 0 ∧ 0 ≤ totalVariance x noise ∧ err = √(totalVariance x noise) * noise.zp ∧
    (col "mjd".toList)[i]? = some (.num t) ∧ (col "filter".toList)[i]? = some (.text f) ∧
    (col "flux_perfect".toList)[i]? = some (.num x) ∧ (col "fluxerr".toList)[i]? = some (.num err) ∧
    (col "flux".toList)[i]? = some (.num (x + err * eps)) ∧ (col "survey_idx".toList)[i]? = some (.survey j)

/-- `x` is the spectrum `H` at time `t` integrated over the passband of the filter `f` in the group. -/
def BandFlux (g : PassbandGroup ℝ) (H : ℝ → ℝ → ℝ) (f : Name) (t x : ℝ) : Prop := ∃ pb, g.getItem f = .ok pb ∧ x = bandIntegral pb (H t)

/-- Entry `i` of the six standard columns `col` is the measurement of the spectrum `H` in row `q` of survey `j`, with the standard normal number `eps` as its
noise: the perfect flux is the spectrum integrated over the passband of the row's filter. -/
def Measured (a : SurveyArg) (j q : Nat) (H : ℝ → ℝ → ℝ) (eps : ℝ) (col : Name → List NCell) (i : Nat) : Prop :=
  MeasuredBy a j q (BandFlux a.group H) eps col i

end LCL.EndToEndSpec
