import Verif.Model.Salt2
import Verif.Model.Passband
import Mathlib.MeasureTheory.Integral.IntervalIntegral.Basic
import Mathlib.Analysis.SpecialFunctions.Pow.Real

/-!
# Model of `num_snia_per_redshift_bin` (`src/lightcurvelynx/astro_utils/snia_utils.py`)

Numbers are real. Astropy's `FlatLambdaCDM(H0, Om0)` without radiation (the default `Tcmb0 = 0`) is modelled by its defining formulas:
`E(z) = sqrt(Om0 (1 + z)^3 + 1 - Om0)`, the comoving distance `c / H0 ∫ dz / E` in Mpc and
`differential_comoving_volume = c / H0 D² / E`; `Om0 < 0` raises ValueError.
-/

namespace LCL.SniaRates
open LCL LCL.Salt2

/-- The Hubble function of `FlatLambdaCDM`, in units of `H0`. -/
noncomputable def efunc (om z : ℝ) : ℝ := Real.sqrt (om * (1 + z) ^ 3 + (1 - om))

/-- `FlatLambdaCDM.comoving_distance` in Mpc (it is also the transverse one). -/
noncomputable def comovingDistance (h0 om z : ℝ) : ℝ := 299792.458 / h0 * ∫ x in (0 : ℝ)..z, 1 / efunc om x

/-- `FlatLambdaCDM.differential_comoving_volume` in Mpc³ per steradian. -/
noncomputable def diffVolume (h0 om z : ℝ) : ℝ := 299792.458 / h0 * comovingDistance h0 om z ^ 2 / efunc om z

/-- snia_utils.py:80-84: the integrand, for one redshift. -/
noncomputable def dnDz (solidAngle h0 om z : ℝ) : ℝ :=
  volumetricRate z * (solidAngle * diffVolume h0 om z * (h0 / 70) ^ 3)

/-- snia_utils.py:38-88 `num_snia_per_redshift_bin`. The number of bins is an integer; `np.linspace` raises ValueError for a negative number of points. -/
noncomputable def numPerBin (zmin zmax : ℝ) (znbins : Int) (solidAngle : Option ℝ) (h0 om : ℝ) : Except Err (List ℝ × List ℝ) :=
  open Classical in
  let omega := solidAngle.getD (4 * Real.pi)
  if om < 0 then .error .valueError
  else if znbins + 1 < 0 then .error .valueError
  else
    let zarr := linspace zmin zmax (znbins + 1).toNat
    let intArr := (zarr.dropLast.zip zarr.tail).map fun e => linspace e.1 e.2 50
    let zMean := intArr.map fun row => row.sum / 50
    let num := intArr.map fun row => trapezoid (row.map fun z => (z, dnDz omega h0 om z))
    .ok (num, zMean)

end LCL.SniaRates
