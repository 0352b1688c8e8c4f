import Verif.Model.Periodic
import Mathlib.Analysis.SpecialFunctions.Exp

/-!
# Model of the black body and of the evaluation of an eclipsing binary

`src/lightcurvelynx/astro_utils/black_body.py`, `src/lightcurvelynx/models/periodic_variable_star.py`, and the constants of
`src/lightcurvelynx/consts.py` they use. Numbers are real. Astropy's `BlackBody` is modelled by the formula it documents
(`astropy.modeling.physical_models.BlackBody.evaluate`): the Planck function of the frequency `c / λ`, a ValueError for a negative temperature, and
zero at temperature zero (where `expm1` is infinite). A wavelength of zero gives NaN in the code; here it gives zero, and no theorem speaks of it.
-/

namespace LCL.BinaryStar
open LCL

/-- The CODATA constants of astropy, in CGS units: Planck's and Boltzmann's constants and the speed of light. -/
noncomputable def planckH : ℝ := 6.62607015e-27
noncomputable def boltzK : ℝ := 1.380649e-16
noncomputable def lightC : ℝ := 2.99792458e10

/-- consts.py:12-13 `PARSEC_TO_CM`: a parsec is 648000/π astronomical units of 149597870700 m. -/
noncomputable def parsecCm : ℝ := 648000 / Real.pi * 1.495978707e13

/-- consts.py:40-41 `ANGSTROM_TO_CM`. -/
noncomputable def angstromCm : ℝ := 1e-8

/-- consts.py:43-44 `CGS_FNU_UNIT_TO_NJY`. -/
noncomputable def fnuNjy : ℝ := 1e32

/-- `BlackBody(T)(λ)`: the intensity per frequency of a black body at the wavelength `lam` (cm), for a temperature that is not negative. -/
noncomputable def planckIntensity (temp lam : ℝ) : ℝ :=
  let nu := lightC / lam
  2 * planckH * nu ^ 3 / (lightC ^ 2 * (Real.exp (planckH * nu / (boltzK * temp)) - 1))

open Classical in
/-- black_body.py:6-40 `black_body_luminosity_density_per_solid`. -/
noncomputable def blackBodyLum (temp radius : ℝ) (wavesCm : List ℝ) : Except Err (List ℝ) :=
  if temp < 0 then .error .valueError
  else .ok (wavesCm.map fun lam => (if temp = 0 then 0 else planckIntensity temp lam) * Real.pi * radius ^ 2)

open Classical in
/-- periodic_variable_star.py:178-200 for a phase that may be NaN (the period is zero): every comparison with NaN is false, so the overlap area of
line 271 is zero and neither star is eclipsed. -/
noncomputable def binaryLumAt (b : Binary) (lum1 lum2 : ℝ) : Option ℝ → ℝ
  | some phase => binaryLum b lum1 lum2 phase
  | none => clip0 (lum1 * (1 - 0)) + clip0 (lum2 * (1 - 0 / (Real.pi * b.r2 ^ 2)))

/-- periodic_variable_star.py:140-200 `EclipsingBinaryStar._dl_dnu_domega_phases`. -/
noncomputable def binaryLums (node : Name) (st : SState ℝ) (phases : List (Option ℝ)) (wavesCm : List ℝ) : Except Err (Mat ℝ) := do
  let p ← localParams st node
  let t1 ← numParam p "primary_temperature".toList
  let r1 ← numParam p "primary_radius".toList
  let t2 ← numParam p "secondary_temperature".toList
  let r2 ← numParam p "secondary_radius".toList
  let a ← numParam p "major_semiaxis".toList
  let inc ← numParam p "inclination".toList
  let lum1 ← blackBodyLum t1 r1 wavesCm
  let lum2 ← blackBodyLum t2 r2 wavesCm
  return phases.map fun ph => (lum1.zip lum2).map fun l => binaryLumAt ⟨a, inc, r1, r2⟩ l.1 l.2 ph

/-- base_models.py:294-323 `get_param` of a number, with the default `None`, which then raises TypeError in the product of line 56. -/
def getNum (st : SState ℝ) (node : Name) (k : Name) : Except Err ℝ :=
  match st.get? node with
  | none => .error .typeError
  | some p => match p.get? k with
    | some (.num x) => .ok x
    | _ => .error .typeError

/-- periodic_variable_star.py:37-59 `PeriodicVariableStar._evaluate_phases`; `lums` is the subclass's `_dl_dnu_domega_phases`. -/
noncomputable def evaluatePhases (node : Name) (lums : SState ℝ → List (Option ℝ) → List ℝ → Except Err (Mat ℝ)) (st : SState ℝ)
    (phases : List (Option ℝ)) (waves : List ℝ) : Except Err (Mat ℝ) := do
  let d ← getNum st node "distance".toList
  let m ← lums st phases (waves.map fun w => w * angstromCm)
  return m.map fun row => row.map fun l => starFlux fnuNjy (d * parsecCm) l

/-- `EclipsingBinaryStar.compute_sed`: periodic_model.py:53-77 over the two methods above. -/
noncomputable def binarySed {W : Type} (node : Name) : W → SState ℝ → List ℝ → List ℝ → Except Err (Mat ℝ) :=
  periodicSed node (fun _ st phases waves => evaluatePhases node (binaryLums node) st phases waves)

/-- base_models.py:274-292 `has_valid_param` and periodic_variable_star.py:32-35: the constructor refuses a distance that is always `None`.
`setters` are the setters of the node after the base class's constructor; a setter is a constant or something else. -/
def starInit (setters : Dict Name (Option (PVal ℝ))) : Except Err Unit :=
  match setters.get? "distance".toList with
  | none => .error .valueError
  | some (some .none) => .error .valueError
  | some _ => .ok ()

end LCL.BinaryStar
