import Verif.Model.Photometry

/-!
# Specification vocabulary for photometry (C42, C43, C51, C69)
-/

namespace LCL.PhotSpec
open LCL Real

/-- The documented variance of the measured flux, in electrons squared: the electrons of the source, the sky under
the PSF, the readout noise of every pixel in every exposure, the dark current of every pixel. -/
noncomputable def documentedVariance (electrons psf sky readoutPerPixel count dark exptime : ℝ) : ℝ :=
  electrons + psf * sky + psf * count * readoutPerPixel ^ 2 + psf * dark * exptime

/-- Physical inputs: a positive zero point, nothing else negative. -/
structure Physical (flux : ℝ) (a : NoiseArgs) : Prop where
  flux : 0 ≤ flux
  exptime : 0 ≤ a.exptime
  count : 0 ≤ a.count
  psf : 0 ≤ a.psf
  sky : 0 ≤ a.sky
  zp : 0 < a.zp
  dark : 0 ≤ a.dark
  readout : ∀ x, a.readout = .num x → 0 ≤ x

/-- The readout noise of a Roman exposure of `exptime` seconds with the documented formula (equation 9 of Rose et al. 2025): with `n` reads of 3.04 s,
the square root of 25 + 3072 (n - 1) / (n (n + 1)). -/
noncomputable def rampNoise (exptime : ℝ) : ℝ :=
  √(25 + 3072 * (exptime / 3.04 - 1) / ((exptime / 3.04) * (exptime / 3.04 + 1)))

/-- The `i`-th of the successive standard normal draws from the generator state `r`. -/
def drawAt {R : Type} (draw : R → ℝ × R) : R → Nat → ℝ
  | r, 0 => (draw r).1
  | r, i + 1 => drawAt draw (draw r).2 i

/-- The generator state after `n` draws. -/
def afterDraws {R : Type} (draw : R → ℝ × R) : R → Nat → R
  | r, 0 => r
  | r, n + 1 => afterDraws draw (draw r).2 n

/-- The number in row `i` of a column. -/
def rowNum (t : ObsTable) (name : Name) (i : Nat) : Option ℝ :=
  match (t.cols.get? name).bind fun c => c[i]? with
  | some (.num x) => some x
  | _ => none

/-- The string in row `i` of a column. -/
def rowStr (t : ObsTable) (name : Name) (i : Nat) : Option Name :=
  match (t.cols.get? name).bind fun c => c[i]? with
  | some (.str x) => some x
  | _ => none

end LCL.PhotSpec
