import Verif.Model.ObsTable
import Mathlib.Analysis.SpecialFunctions.Pow.Real
import Mathlib.Analysis.SpecialFunctions.Log.Base

/-!
# Model of the photometry helpers

`src/lightcurvelynx/astro_utils/mag_flux.py`, `noise_model.py`, `zeropoint.py`, and the zero points and flux
errors of the survey tables (`obstable/opsim.py`, `ztf_obstable.py`, `fake_obs_table.py`).
Numbers are reals with exact arithmetic. Where numpy would return NaN or an infinity (square root of a negative
number, logarithm of a non-positive one, division by a zero zero point) the model has `none`.
-/

namespace LCL
open Real

/-! ### mag_flux.py -/

/-- mag_flux.py:7 `MAG_AB_ZP_NJY`. -/
noncomputable def magAbZp : ℝ := 8.9 + 2.5 * 9

/-- mag_flux.py:10-23 `mag2flux`. -/
noncomputable def mag2flux (mag : ℝ) : ℝ := (10 : ℝ) ^ (-0.4 * (mag - magAbZp))

open Classical in
/-- mag_flux.py:26-39 `flux2mag`. -/
noncomputable def flux2mag (flux : ℝ) : Option ℝ :=
  if 0 < flux then some (magAbZp - 2.5 * logb 10 flux) else none

/-! ### noise_model.py -/

/-- The argument `readout_noise`: a number or a function of the exposure time. -/
inductive Readout
  | num (x : ℝ)
  | func (f : ℝ → ℝ)

/-- What the noise of one observation depends on, apart from the flux. -/
structure NoiseArgs where
  exptime : ℝ
  count : ℝ
  psf : ℝ
  sky : ℝ
  zp : ℝ
  readout : Readout
  dark : ℝ

/-- noise_model.py:70-73: the readout variance. -/
def readoutVariance (a : NoiseArgs) : ℝ :=
  match a.readout with
  | .func f => (f a.exptime) ^ 2
  | .num x => x ^ 2 * a.psf * a.count

/-- noise_model.py:68-76: the total variance in electrons. -/
noncomputable def totalVariance (flux : ℝ) (a : NoiseArgs) : ℝ :=
  flux / a.zp + a.sky * a.psf + readoutVariance a + a.dark * a.exptime * a.psf

open Classical in
/-- noise_model.py:7-78 `poisson_bandflux_std`, for one element. -/
noncomputable def poissonStd (flux : ℝ) (a : NoiseArgs) : Option ℝ :=
  if a.zp = 0 then none
  else if totalVariance flux a < 0 then none
  else some (√(totalVariance flux a) * a.zp)

open Classical in
/-- noise_model.py:81-101 `apply_noise`: `rng.normal(loc, scale)` by its contract, one standard normal draw per
element, in order, scaled and shifted; a negative scale or different lengths raise ValueError (numpy would
broadcast a length-1 array). -/
noncomputable def applyNoise {R : Type} (draw : R → ℝ × R) : List ℝ → List ℝ → R → Except Err (List ℝ × R)
  | [], [], r => .ok ([], r)
  | f :: fs, e :: es, r =>
    if e < 0 then .error .valueError
    else match applyNoise draw fs es (draw r).2 with
      | .error err => .error err
      | .ok (l, r') => .ok ((f + e * (draw r).1) :: l, r')
  | _, _, _ => .error .valueError

/-! ### zeropoint.py -/

/-- A value of the dictionaries `instr_zp` and `ext_coeff`: a Python int or float. -/
inductive ZNum
  | int (n : Int)
  | flt (x : ℝ)

/-- The number. -/
def ZNum.val : ZNum → ℝ
  | .int n => n
  | .flt x => x

open Classical in
/-- `int(x)`: truncation toward zero. -/
noncomputable def truncInt (x : ℝ) : Int := if 0 ≤ x then ⌊x⌋ else ⌈x⌉

/-- One output of a vectorized function cast to the dtype of the first output. -/
noncomputable def castLike (first : ZNum) : Option ZNum → Except Err ℝ
  | none => .error .typeError
  | some v => match first with
    | .flt _ => .ok v.val
    | .int _ => .ok (truncInt v.val)

/-- `np.vectorize(d.get)(bands)`: the dtype of the output array is that of the first output; a size-0 input
raises ValueError; a band without an entry gives None, which raises TypeError in the cast or in the sum. -/
noncomputable def vecGet (d : Dict Name ZNum) : List Name → Except Err (List ℝ)
  | [] => .error .valueError
  | b :: bs => match d.get? b with
    | none => .error .typeError
    | some first => (b :: bs).mapM fun x => castLike first (d.get? x)

/-- zeropoint.py:43-57 `magnitude_electron_zeropoint` (exposure times positive; bands, airmass and exposure times
of one length). -/
noncomputable def magZeropoint (instr ext : Dict Name ZNum) (bands : List Name) (airmass exptime : List ℝ) :
    Except Err (List ℝ) :=
  match vecGet instr bands with
  | .error e => .error e
  | .ok z => match vecGet ext bands with
    | .error e => .error e
    | .ok x => .ok (List.zipWith (fun (p : ℝ × ℝ) (q : ℝ × ℝ) => p.1 + p.2 * (q.1 - 1) + 2.5 * logb 10 q.2)
        (z.zip x) (airmass.zip exptime))

/-- zeropoint.py:102-113 `flux_electron_zeropoint`. -/
noncomputable def fluxZeropoint (instr ext : Dict Name ZNum) (bands : List Name) (airmass exptime : List ℝ) :
    Except Err (List ℝ) :=
  match magZeropoint instr ext bands airmass exptime with
  | .error e => .error e
  | .ok l => .ok (l.map mag2flux)

/-- zeropoint.py:195. -/
noncomputable def npixOf (fwhm : ℝ) : ℝ := 2.266 * fwhm ^ 2

/-- zeropoint.py:199: the background in electrons. -/
noncomputable def maglimBackground (sky fwhm gain readnoise dark exptime nexp : ℝ) : ℝ :=
  sky * npixOf fwhm * gain + readnoise ^ 2 * nexp * npixOf fwhm + dark * npixOf fwhm * exptime * nexp

/-- zeropoint.py:196-200: the electrons of a source at the limit. -/
noncomputable def limitElectrons (background : ℝ) : ℝ := 12.5 + 2.5 * √(25 + 4 * background)

/-- zeropoint.py:145-203 `calculate_zp_from_maglim` (with a non-negative background). -/
noncomputable def zpFromMaglim (maglim sky fwhm gain readnoise dark exptime nexp : ℝ) : ℝ :=
  2.5 * logb 10 (limitElectrons (maglimBackground sky fwhm gain readnoise dark exptime nexp)) + maglim

/-! ### Survey tables -/

/-- consts.py:14 `GAUSS_EFF_AREA2FWHM_SQ`. -/
noncomputable def gaussEffArea : ℝ := π / (2 * log 2)

/-- obs_table.py:213-226 `safe_get_survey_value`, used as a number (a text or a dictionary raises TypeError in the
arithmetic that follows). -/
def surveyNum (t : ObsTable) (key : Name) : Except Err ℝ :=
  match t.survey.get? key with
  | none => .error .valueError
  | some .none => .error .valueError
  | some (.num x) => .ok x
  | some _ => .error .typeError

/-- `self._table.iloc[index][name]`. -/
def pickRows (t : ObsTable) (name : Name) (index : List Nat) : Except Err (List ℝ) :=
  match ObsTable.numCol t.cols name with
  | .error e => .error e
  | .ok c => match index.mapM (fun i => c[i]?) with
    | some l => .ok l
    | none => .error .indexError

/-- The elementwise noise of the requested rows (lengths that differ raise ValueError). -/
noncomputable def rowErrors (flux : List ℝ) (args : List NoiseArgs) : Except Err (List (Option ℝ)) :=
  if flux.length = args.length then .ok (List.zipWith poissonStd flux args) else .error .valueError

/-- opsim.py:168-175: what a row of an OpSim table gives to the noise model. -/
noncomputable def opsimArgs (scale readout dark exptime nexposure seeing sky zp : ℝ) : NoiseArgs :=
  { exptime := exptime
    count := nexposure
    psf := gaussEffArea * (seeing / scale) ^ 2
    sky := mag2flux sky * scale ^ 2 / zp
    zp := zp
    readout := .num readout
    dark := dark }

/-- The rows of five columns put together. -/
def zip5 (f : ℝ → ℝ → ℝ → ℝ → ℝ → NoiseArgs) : List ℝ → List ℝ → List ℝ → List ℝ → List ℝ → List NoiseArgs
  | a :: as, b :: bs, c :: cs, d :: ds, e :: es => f a b c d e :: zip5 f as bs cs ds es
  | _, _, _, _, _ => []

/-- opsim.py:148-186 `OpSim.bandflux_error_point_source` (with a nonzero pixel scale). -/
noncomputable def opsimError (t : ObsTable) (flux : List ℝ) (index : List Nat) : Except Err (List (Option ℝ)) :=
  match surveyNum t "pixel_scale".toList with
  | .error e => .error e
  | .ok scale => match pickRows t "seeing".toList index with
    | .error e => .error e
    | .ok seeing => match pickRows t "zp".toList index with
      | .error e => .error e
      | .ok zp => match pickRows t "skybrightness".toList index with
        | .error e => .error e
        | .ok sky => match pickRows t "exptime".toList index with
          | .error e => .error e
          | .ok exptime => match pickRows t "nexposure".toList index with
            | .error e => .error e
            | .ok nexp => match surveyNum t "read_noise".toList with
              | .error e => .error e
              | .ok ro => match surveyNum t "dark_current".toList with
                | .error e => .error e
                | .ok dark => rowErrors flux (zip5 (opsimArgs scale ro dark) exptime nexp seeing sky zp)

/-- ztf_obstable.py:171-184: what a row of a ZTF table gives to the noise model. -/
noncomputable def ztfArgs (gain readout dark exptime fwhm sky zp : ℝ) : NoiseArgs :=
  { exptime := exptime
    count := 1
    psf := gaussEffArea * fwhm ^ 2
    sky := sky * gain
    zp := zp
    readout := .num readout
    dark := dark }

/-- ztf_obstable.py:154-184 `ZTFObsTable.bandflux_error_point_source`. -/
noncomputable def ztfError (t : ObsTable) (flux : List ℝ) (index : List Nat) : Except Err (List (Option ℝ)) :=
  match pickRows t "fwhm".toList index with
  | .error e => .error e
  | .ok fwhm => match pickRows t "exptime".toList index with
    | .error e => .error e
    | .ok exptime => match pickRows t "sky".toList index with
      | .error e => .error e
      | .ok sky => match surveyNum t "gain".toList with
        | .error e => .error e
        | .ok gain => match pickRows t "zp".toList index with
          | .error e => .error e
          | .ok zp => match surveyNum t "read_noise".toList with
            | .error e => .error e
            | .ok ro => match surveyNum t "dark_current".toList with
              | .error e => .error e
              | .ok dark => rowErrors flux (zip5 (fun a b c d _ => ztfArgs gain ro dark a b c d) exptime fwhm sky zp zp)

/-- roman_obstable.py:149-174 `readnoise_func` (its square root is real when the radicand is not negative). -/
noncomputable def romanReadnoise (exptime : ℝ) : ℝ :=
  √(25 + 3072 * ((exptime / 3.04 - 1) / (exptime / 3.04) / (exptime / 3.04 + 1)))

/-- roman_obstable.py:177-207 `calculate_skynoise`. -/
def romanSky (exptime zodiScale zodiMin thermal : ℝ) : ℝ := exptime * (zodiScale * zodiMin + thermal)

/-- roman_obstable.py:224-241: what a row of a Roman table gives to the noise model (positive exposure time). -/
noncomputable def romanArgs (zodiScale dark exptime npix zodiMin thermal zp : ℝ) : NoiseArgs :=
  { exptime := exptime
    count := 1
    psf := npix
    sky := romanSky exptime zodiScale zodiMin thermal
    zp := zp / exptime
    readout := .func romanReadnoise
    dark := dark }

/-- roman_obstable.py:209-241 `RomanObsTable.bandflux_error_point_source`. -/
noncomputable def romanError (t : ObsTable) (flux : List ℝ) (index : List Nat) : Except Err (List (Option ℝ)) :=
  match pickRows t "exptime".toList index with
  | .error e => .error e
  | .ok exptime => match surveyNum t "zodi_level".toList with
    | .error e => .error e
    | .ok level => match pickRows t "zodi_countrate_min".toList index with
      | .error e => .error e
      | .ok zodi => match pickRows t "thermal_countrate".toList index with
        | .error e => .error e
        | .ok thermal => match pickRows t "N_Eff_Pix".toList index with
          | .error e => .error e
          | .ok npix => match pickRows t "zp".toList index with
            | .error e => .error e
            | .ok zp => match surveyNum t "dark_current".toList with
              | .error e => .error e
              | .ok dark => rowErrors flux (zip5 (romanArgs level dark) exptime npix zodi thermal zp)

/-- ztf_obstable.py:98-108: the zero point of a row, from the camera constants 6.2, 8 and 0 (lines 17-27). -/
noncomputable def ztfZp (maglim sky fwhm exptime : ℝ) : ℝ := mag2flux (zpFromMaglim maglim sky fwhm 6.2 8 0 exptime 1)

/-- ztf_obstable.py:85-109 `ZTFObsTable._assign_zero_points` on a table whose fwhm column has no missing entries
(rows with a missing fwhm are dropped by the code; not modelled). -/
noncomputable def ztfAssignZp (t : ObsTable) : Except Err ObsTable :=
  if ["maglim".toList, "sky".toList, "fwhm".toList, "exptime".toList].all fun c => t.cols.has c then
    match ObsTable.numCol t.cols "maglim".toList with
    | .error e => .error e
    | .ok maglim => match ObsTable.numCol t.cols "sky".toList with
      | .error e => .error e
      | .ok sky => match ObsTable.numCol t.cols "fwhm".toList with
        | .error e => .error e
        | .ok fwhm => match ObsTable.numCol t.cols "exptime".toList with
          | .error e => .error e
          | .ok exptime => t.addColumn "zp".toList (.column ((List.zipWith (fun (p : ℝ × ℝ) (q : ℝ × ℝ) =>
              Cell.num (ztfZp p.1 p.2 q.1 q.2)) (maglim.zip sky) (fwhm.zip exptime)))) true
  else .error .valueError

/-- opsim.py:101-117 `OpSim._assign_zero_points`, the dictionaries being the survey values `zp_per_sec` and
`ext_coeff`. -/
noncomputable def opsimAssignZp (instr ext : Dict Name ZNum) (t : ObsTable) : Except Err ObsTable :=
  if ["filter".toList, "airmass".toList, "exptime".toList].all fun c => t.cols.has c then
    match t.cols.get? "filter".toList with
    | none => .error .keyError
    | some c => match c.mapM Cell.str? with
      | .error e => .error e
      | .ok bands => match ObsTable.numCol t.cols "airmass".toList with
        | .error e => .error e
        | .ok airmass => match ObsTable.numCol t.cols "exptime".toList with
          | .error e => .error e
          | .ok exptime => match fluxZeropoint instr ext bands airmass exptime with
            | .error e => .error e
            | .ok zp => t.addColumn "zp".toList (.column (zp.map Cell.num)) true
  else .error .valueError

end LCL
