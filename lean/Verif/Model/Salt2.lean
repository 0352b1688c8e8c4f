import Verif.Model.Units
import Verif.Model.Bicubic
import Mathlib.Analysis.SpecialFunctions.Pow.Real
import Mathlib.Analysis.SpecialFunctions.Log.Base

/-!
# Model of `astro_utils/salt2_color_law.py`, `models/salt2_jax.py` and the SN Ia helpers of `astro_utils/snia_utils.py`

Exact real arithmetic. Numbers in files are tokens; `float` and `int` of a token are parameters of the model.
-/

namespace LCL.Salt2
variable {K : Type} [Field K] [LinearOrder K]

/-! ## The colour law -/

/-- salt2_color_law.py:13. -/
def waveB : K := 430257 / 100

/-- salt2_color_law.py:14. -/
def waveV : K := 542855 / 100

/-- salt2_color_law.py:62-63 and 116: the scaled wavelength (`_WAVESCALE` of line 15). -/
def scaled (w : K) : K := (w - waveB) * (1 / (waveV - waveB))

/-- salt2_color_law.py:53-59: the seven coefficients. -/
def padded (coeffs : List K) : List K :=
  let six := (coeffs.take 6) ++ List.replicate (6 - (coeffs.take 6).length) 0
  (1 - six.sum) :: six

/-- salt2_color_law.py:65-67 and 126-128: the sum of `coeffs[k] * u ** (k + 1)` (`n` is the exponent of the first entry). -/
def powSum (n : Nat) (u : K) : List K → K
  | [] => 0
  | c :: cs => c * u ^ n + powSum (n + 1) u cs

/-- salt2_color_law.py:70-73: `sum((k + 1) * coeffs[k] * u ** k, k = 1..6) + coeffs[0]`. -/
def dSum (n : Nat) (u : K) : List K → K
  | [] => 0
  | c :: cs => ((n + 1 : Nat) : K) * c * u ^ n + dSum (n + 1) u cs

/-- salt2_color_law.py:50-73: the attributes. -/
structure ColorLaw (K : Type) where
  coeffs : List K
  lo : K
  hi : K
  valueLo : K
  valueHi : K
  derivLo : K
  derivHi : K

/-- salt2_color_law.py:50-73 `__init__`. -/
def ColorLaw.init (waveMin waveMax : K) (coeffs : List K) : ColorLaw K where
  coeffs := padded coeffs
  lo := scaled waveMin
  hi := scaled waveMax
  valueLo := powSum 1 (scaled waveMin) (padded coeffs)
  valueHi := powSum 1 (scaled waveMax) (padded coeffs)
  derivLo := dSum 1 (scaled waveMin) (padded coeffs).tail + (padded coeffs).headD 0
  derivHi := dSum 1 (scaled waveMax) (padded coeffs).tail + (padded coeffs).headD 0

/-- salt2_color_law.py:116-138: the three cases, before the sign. -/
def ColorLaw.raw (c : ColorLaw K) (u : K) : K :=
  if u < c.lo then c.valueLo + c.derivLo * (u - c.lo)
  else if u > c.hi then c.valueHi + c.derivHi * (u - c.hi)
  else powSum 1 u c.coeffs

/-- salt2_color_law.py:107-139 `apply`, for one wavelength. -/
def ColorLaw.at (c : ColorLaw K) (w : K) : K := -(c.raw (scaled w))

/-- salt2_color_law.py:107-139 `apply`. -/
def ColorLaw.apply (c : ColorLaw K) (ws : List K) : List K := ws.map c.at

/-! ## Reading a colour law -/

/-- Python `needle in s`. -/
def hasSub (needle : Name) : Name → Bool
  | [] => needle.isPrefixOf []
  | c :: s => needle.isPrefixOf (c :: s) || hasSub needle s

/-- What `float(token)` and `int(token)` give; nothing when they raise `ValueError`. -/
structure Parser (K : Type) where
  float : Name → Option K
  int : Name → Option Int

/-- salt2_color_law.py:95-103: the loop over the label-value pairs, from the state `(wave_min, wave_max)`. -/
def readMeta (P : Parser K) : K × K → List Name → Except Err (K × K)
  | st, [] => .ok st
  | st, [label] =>
    if hasSub "min_lambda".toList label || hasSub "max_lambda".toList label || hasSub "version".toList label
    then .error .indexError else .ok st
  | st, label :: value :: rest =>
    if hasSub "min_lambda".toList label then
      match P.float value with | none => .error .valueError | some v => readMeta P (v, st.2) rest
    else if hasSub "max_lambda".toList label then
      match P.float value with | none => .error .valueError | some v => readMeta P (st.1, v) rest
    else if hasSub "version".toList label then
      match P.int value with
      | none => .error .valueError
      | some v => if v ≠ 1 then .error .runtimeError else readMeta P st rest
    else readMeta P st rest

/-- salt2_color_law.py:76-105 `from_file`, on the whitespace-separated tokens of the file. A negative
number of coefficients slices from the other end; it is rejected here (`ValueError`). -/
def readLaw (P : Parser K) : List Name → Except Err (ColorLaw K)
  | [] => .error .indexError
  | n :: rest =>
    match P.int n with
    | none => .error .valueError
    | some n =>
      if n < 0 then .error .valueError
      else match (rest.take n.toNat).mapM P.float with
        | none => .error .valueError
        | some coeffs => match readMeta P (3000, 7000) (rest.drop n.toNat) with
          | .error e => .error e
          | .ok (lo, hi) => .ok (ColorLaw.init lo hi coeffs)

/-! ## The spectrum -/

/-- Angstrom, `erg / s / cm^2 / AA` and nanojansky (astropy definitions). -/
noncomputable def unitAA : AUnit := ⟨1 / 10 ^ 10, 1, 0, 0⟩
@[inherit_doc unitAA] noncomputable def unitFlam : AUnit := ⟨10 ^ 7, -1, 1, -3⟩
@[inherit_doc unitAA] noncomputable def unitNJy : AUnit := ⟨1 / 10 ^ 35, 0, 1, -2⟩

/-- salt2_jax.py:169-179: one entry of the flux in `erg / s / cm^2 / AA`; `m0` and `m1` are the values
of the two interpolators at the phase and wavelength. -/
noncomputable def flam (x0 x1 c : ℝ) (law : ColorLaw ℝ) (m0 m1 w : ℝ) : ℝ :=
  x0 * (m0 + x1 * m1) * (10 : ℝ) ^ (-(4 / 10) * law.at w * c)

/-- The entry at an index of a matrix (last axis first), for a function of the row and column entries. -/
noncomputable def entry (times waves : List ℝ) (f : ℝ → ℝ → ℝ) : List Nat → ℝ
  | j :: i :: _ => f (times.getD i 0) (waves.getD j 0)
  | _ => 0

/-- salt2_jax.py:148-189 `compute_sed`; `m0`, `m1` are the interpolators of a phase and a wavelength. -/
noncomputable def computeSed (m0 m1 : ℝ → ℝ → ℝ) (law : ColorLaw ℝ) (x0 x1 c t0 : ℝ) (times waves : List ℝ) : Except Err NArr :=
  let flux : NArr := ⟨[waves.length, times.length], entry times waves fun t w => flam x0 x1 c law (m0 (t - t0) w) (m1 (t - t0) w) w⟩
  let ws : NArr := ⟨[waves.length], fun i => waves.getD (i.headD 0) 0⟩
  flamToFnu flux ws unitAA unitFlam unitNJy

/-- salt2_jax.py:116-146 and bayesn.py:412-442 `mask_by_time` (`lo = -20`, `hi = 50`), and
sncomso_models.py:209-241 (`lo`, `hi` the phase range of the source), for one time; `z` and `t0` may be missing. -/
def maskByTime (lo hi : K) (z t0 : Option K) (t : K) : Bool :=
  let z := z.getD 0
  let t0 := t0.getD 0
  decide (t > t0 + lo * (1 + z)) && decide (t < t0 + hi * (1 + z))

/-! ## SN Ia brightness -/

/-- snia_utils.py:151-178 `_x0_from_distmod`. -/
noncomputable def x0FromDistmod (distmod x1 c alpha beta mAbs : ℝ) : ℝ :=
  (10 : ℝ) ^ (-(4 / 10) * (distmod - alpha * x1 + beta * c + mAbs - 10635 / 1000))

/-- snia_utils.py:13-35 `snia_volumetric_rates`. -/
noncomputable def volumetricRate (z : ℝ) : ℝ := 227 / 10 ^ 7 * (1 + z) ^ (17 / 10 : ℝ)

end LCL.Salt2
