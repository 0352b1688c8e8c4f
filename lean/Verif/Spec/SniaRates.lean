import Mathlib.MeasureTheory.Integral.IntervalIntegral.Basic
import Mathlib.Analysis.SpecialFunctions.Pow.Real

/-!
# Specification of the number of type Ia supernovae

The rate of Frohmaier et al. (2019), `2.27e-5 (1 + z)^1.7` per year and (Mpc / h70)³ of comoving volume, integrated over the comoving volume of a flat
universe with matter density `om` and a cosmological constant. Lengths in Mpc / h70, that is with the Hubble constant 70 km/s/Mpc.
-/

namespace LCL.SniaSpec
open Real

/-- The comoving distance to redshift `z`, in Mpc / h70. -/
noncomputable def distance (om z : ℝ) : ℝ := ∫ x in (0 : ℝ)..z, 299792.458 / (70 * sqrt (om * (1 + x) ^ 3 + 1 - om))

/-- The supernovae per year, steradian and unit of redshift: rate times area of the shell times its thickness. -/
noncomputable def density (om z : ℝ) : ℝ :=
  2.27e-5 * (1 + z) ^ (1.7 : ℝ) * (distance om z ^ 2 * (299792.458 / (70 * sqrt (om * (1 + z) ^ 3 + 1 - om))))

/-- The supernovae per year within a solid angle and between two redshifts. -/
noncomputable def expected (omega om z1 z2 : ℝ) : ℝ := omega * ∫ z in z1..z2, density om z

end LCL.SniaSpec
