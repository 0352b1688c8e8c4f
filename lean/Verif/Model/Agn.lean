import Verif.Model.Drw
import Mathlib.Analysis.SpecialFunctions.Pow.Real
import Mathlib.Analysis.SpecialFunctions.Log.Base
import Mathlib.Analysis.SpecialFunctions.Trigonometric.Basic
import Mathlib.MeasureTheory.Integral.Bochner.Set
import Mathlib.MeasureTheory.Measure.Lebesgue.Basic

/-!
# Model of `src/lightcurvelynx/models/agn.py` (lines 69-530) and `src/lightcurvelynx/astro_utils/agn_utils.py`

Exact real arithmetic. The physical constants are parameters (`Consts`); the numerical quadrature of `scipy` is replaced by the
integral it approximates. The stream of numbers of the object's own generator is a function `Nat → ℝ` with a position.
-/

namespace LCL.Agn
open LCL

/-- The constants of `astropy.constants` (agn.py:275-281, 477-478) and of `consts.py` (agn.py:15), all in CGS. -/
structure Consts where
  G : ℝ
  c : ℝ
  h : ℝ
  kB : ℝ
  sigma : ℝ
  mSun : ℝ
  toNJy : ℝ
  angToCm : ℝ
  pcToCm : ℝ

/-- All constants are positive (true of the values in `astropy.constants` and `consts.py`). -/
structure Consts.Pos (k : Consts) : Prop where
  G : 0 < k.G
  c : 0 < k.c
  h : 0 < k.h
  kB : 0 < k.kB
  sigma : 0 < k.sigma
  mSun : 0 < k.mSun
  toNJy : 0 < k.toNJy
  angToCm : 0 < k.angToCm
  pcToCm : 0 < k.pcToCm

/-- agn.py:128: the mass in grams. -/
def massGram (k : Consts) (mSun : ℝ) : ℝ := mSun * k.mSun

/-- agn.py:188-202 `compute_critical_accretion_rate`. -/
noncomputable def criticalAccretionRate (k : Consts) (mass : ℝ) : ℝ := 14 * 10 ^ 17 * mass / k.mSun

/-- agn.py:204-220 `compute_blackhole_accretion_rate`. -/
def accretionRate (rate edd : ℝ) : ℝ := rate * edd

/-- agn.py:222-238 `compute_bolometric_luminosity`. -/
noncomputable def bolometricLuminosity (k : Consts) (edd mass : ℝ) : ℝ := edd * (126 * 10 ^ 36) * mass / k.mSun

/-- agn.py:307-327 `compute_mag_i`. -/
noncomputable def magI (lum : ℝ) : ℝ := 90 - 25 / 10 * Real.logb 10 lum

/-- agn.py:329-352 `compute_r_0`. -/
noncomputable def r0 (rin : ℝ) : ℝ := (7 / 6) ^ 2 * rin

/-- agn.py:354-375 `compute_structure_function_at_inf` at one wavelength, in cm. -/
noncomputable def sfInf (sf4000 wave : ℝ) : ℝ := sf4000 * (10 : ℝ) ^ (-0.479 : ℝ) * wave / (4000 * (1 / 10 ^ 8))

/-- agn.py:377-403 `compute_sf_inf_4000aa`. -/
noncomputable def sfInf4000 (k : Consts) (mag mass : ℝ) : ℝ :=
  (10 : ℝ) ^ (-0.476 + 0.118 * (mag + 23) + 0.118 * Real.logb 10 (mass / (10 ^ 9 * k.mSun)))

/-- agn.py:405-430 `compute_tau_4000aa`. -/
noncomputable def tau4000 (k : Consts) (mag mass : ℝ) : ℝ :=
  (10 : ℝ) ^ (2.597 + 0.035 * (mag + 23) + 0.141 * Real.logb 10 (mass / (10 ^ 9 * k.mSun)))

/-- agn.py:432-448 `compute_tau` at one wavelength, in cm. -/
noncomputable def tau (tau4000 wave : ℝ) : ℝ := tau4000 * (10 : ℝ) ^ (0.17 : ℝ) * wave / (4000 * (1 / 10 ^ 8))

/-- agn.py:450-479 `compute_temp_at_r_0`. -/
noncomputable def tempAtR0 (k : Consts) (mass mdot rin : ℝ) : ℝ :=
  (2 : ℝ) ^ (3 / 4 : ℝ) * (3 / 7 : ℝ) ^ (7 / 4 : ℝ) * (k.G * mass * mdot / (Real.pi * k.sigma * rin ^ 3)) ^ (1 / 4 : ℝ)

/-- agn.py:290-291: the integrand. -/
noncomputable def integrand (x : ℝ) : ℝ := x ^ (5 / 3 : ℝ) / (Real.exp x - 1)

/-- agn.py:293: the quadrature from `a` to infinity. Simplified: the exact integral instead of its numerical value. -/
noncomputable def quad (a : ℝ) : ℝ := ∫ x in Set.Ioi a, integrand x

/-- agn.py:275: the inner radius of the disk. -/
noncomputable def innerRadius (k : Consts) (mass rinToRg : ℝ) : ℝ := k.G * mass / k.c ^ 2 * rinToRg

/-- agn.py:283: the lower limit of the integral. -/
noncomputable def xIn (k : Consts) (nu temp rin : ℝ) : ℝ :=
  max (k.h * nu / (k.kB * temp) * (rin / r0 rin) ^ (3 / 4 : ℝ)) (1 / 10 ^ 6)

/-- agn.py:240-305 `compute_sed_standard_disk` at one frequency. -/
noncomputable def diskSed (k : Consts) (mdot nu rinToRg i d mass : ℝ) : ℝ :=
  let rin := innerRadius k mass rinToRg
  let temp := tempAtR0 k mass mdot rin
  (16 * Real.pi / (3 * d ^ 2) * Real.cos i * (k.kB * temp / k.h) ^ (8 / 3 : ℝ) * k.h * nu ^ (1 / 3 : ℝ) / k.c ^ 2 * r0 rin ^ 2
    * quad (xIn k nu temp rin)) * k.toNJy

/-- The sampled and derived parameters of an AGN object for one sample (agn.py:119-177). -/
structure Params where
  t0 : ℝ
  mass : ℝ
  edd : ℝ
  inclination : ℝ
  distance : ℝ
  massGram : ℝ
  critical : ℝ
  accretion : ℝ
  luminosity : ℝ
  magI : ℝ
  sf4000 : ℝ
  tau4000 : ℝ

/-- agn.py:119-177: the derived parameters, computed from the sampled ones. The evaluation of function nodes is the subject of
the model of the parameter graph; here the composition of the functions is written out. -/
noncomputable def params (k : Consts) (t0 mass edd inclination distance : ℝ) : Params :=
  let g := massGram k mass
  let crit := criticalAccretionRate k g
  let lum := bolometricLuminosity k edd g
  let mag := Agn.magI lum
  { t0 := t0, mass := mass, edd := edd, inclination := inclination, distance := distance, massGram := g, critical := crit,
    accretion := accretionRate crit edd, luminosity := lum, magI := mag, sf4000 := sfInf4000 k mag g, tau4000 := Agn.tau4000 k mag g }

/-- agn.py:511-518: the average flux of the disk at one wavelength, in angstroms. -/
noncomputable def diskFlux (k : Consts) (p : Params) (wave : ℝ) : ℝ :=
  diskSed k p.accretion (k.c / (wave * k.angToCm)) 6 p.inclination (p.distance * k.pcToCm) p.massGram

/-- agn.py:529: a row of the flux densities. -/
noncomputable def fluxRow (delta : List (Option ℝ)) (avg : List ℝ) : List (Option ℝ) :=
  List.zipWith (fun d f => d.map fun m => (10 : ℝ) ^ (-0.4 * m) * f) delta avg

/-- agn.py:481-530 `compute_sed`: `pos` is the number of values already drawn from the object's generator `rng`. The result
carries the new position. The row of NaN of a zero time scale comes from `drwStep`. The position after a call that is rejected is
simplified to be the old one. -/
noncomputable def computeSed (k : Consts) (rng : Nat → ℝ) (pos : Nat) (p : Params) (times waves : List ℝ) :
    Nat × Except Err (List (List (Option ℝ))) :=
  match drw times (waves.map fun w => tau p.tau4000 (w * k.angToCm)) (waves.map fun w => sfInf p.sf4000 (w * k.angToCm)) p.t0
      (fun n => rng (pos + n)) with
  | .error e => (pos, .error e)
  | .ok rows => (pos + 1 + times.length, .ok (rows.map fun r => fluxRow r (waves.map (diskFlux k p))))

/-! ## The distribution of Eddington ratios -/

/-- agn_utils.py:47-49, 52-54: the normalisation. -/
noncomputable def xi (red : Bool) : ℝ := if red then (10 : ℝ) ^ (-2.13 : ℝ) else (10 : ℝ) ^ (-1.65 : ℝ)

/-- agn_utils.py:59: the value for one draw of the break and the two slopes. -/
noncomputable def eddDist (red : Bool) (ratio br d1 d2 : ℝ) : ℝ := xi red * ((ratio / br) ^ d1 + (ratio / br) ^ d2)

/-- agn_utils.py:12-63 `eddington_ratio_dist_fun`; the galaxy type is given in lower case, `draws` are the drawn triples
(`10 ** normal`, `normal`, `normal`), one for each sample. One sample gives a number, several an array, none an empty array. -/
noncomputable def eddingtonRatioDist (galaxy : String) (ratio : ℝ) (draws : List (ℝ × ℝ × ℝ)) : Except Err (List ℝ ⊕ ℝ) :=
  if galaxy = "red" ∨ galaxy = "blue" then
    match draws.map fun d => eddDist (galaxy == "red") ratio d.1 d.2.1 d.2.2 with
    | [v] => .ok (.inr v)
    | vs => .ok (.inl vs)
  else .error .valueError

end LCL.Agn
