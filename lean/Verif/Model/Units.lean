import Verif.Base.Py
import Mathlib.Analysis.SpecialFunctions.Exp

/-!
# Model of `src/lightcurvelynx/astro_utils/unit_utils.py` and `obs_utils.py`

A numpy array is a shape and a function from indices to reals; shapes and indices are listed with the LAST axis
first, so that broadcasting aligns them at the head. An astropy unit is, by its contract, a scale with respect to
the SI base units and the exponents of length, mass and time; conversion between units of different dimension
raises `UnitConversionError`, a `ValueError`.
-/

namespace LCL
open Real

/-- A numpy array (see above). -/
structure NArr where
  shape : List Nat
  get : List Nat → ℝ

namespace NArr

/-- `np.broadcast_shapes`. -/
def bshape : List Nat → List Nat → Option (List Nat)
  | [], s => some s
  | s, [] => some s
  | a :: as, b :: bs => match bshape as bs with
    | none => none
    | some r => if a = b then some (a :: r) else if a = 1 then some (b :: r) else if b = 1 then some (a :: r) else none

/-- The index into an operand of the given shape that broadcasting uses for an index of the result. -/
def bidx : List Nat → List Nat → List Nat
  | [], _ => []
  | _, [] => []
  | a :: as, i :: is => (if a = 1 then 0 else i) :: bidx as is

/-- An elementwise operation with broadcasting. -/
def zip (f : ℝ → ℝ → ℝ) (x y : NArr) : Except Err NArr :=
  match bshape x.shape y.shape with
  | none => .error .valueError
  | some s => .ok ⟨s, fun i => f (x.get (bidx x.shape i)) (y.get (bidx y.shape i))⟩

/-- An elementwise operation. -/
def map (f : ℝ → ℝ) (x : NArr) : NArr := ⟨x.shape, fun i => f (x.get i)⟩

/-- `a[None, :]` for a one-dimensional array. -/
def newAxis (x : NArr) : NArr := ⟨x.shape ++ [1], fun i => x.get (i.take x.shape.length)⟩

end NArr

/-- An astropy unit: the scale and the exponents of length, mass and time. -/
structure AUnit where
  scale : ℝ
  dim : Int × Int × Int

namespace AUnit

/-- The product of units. -/
noncomputable def mul (u v : AUnit) : AUnit := ⟨u.scale * v.scale, u.dim + v.dim⟩

/-- The quotient of units. -/
noncomputable def div (u v : AUnit) : AUnit := ⟨u.scale / v.scale, u.dim - v.dim⟩

/-- `(1.0 * u).to_value(v)`. -/
noncomputable def convert (u v : AUnit) : Except Err ℝ :=
  if u.dim = v.dim then .ok (u.scale / v.scale) else .error .valueError

/-- `const.c.unit`: metre per second. -/
def metrePerSecond : AUnit := ⟨1, 1, 0, -1⟩

end AUnit

/-- `const.c.value`. -/
def lightSpeed : ℝ := 299792458

/-- unit_utils.py:5-23 `bulk_convert_matrix`. -/
noncomputable def bulkConvert (mat : NArr) (inU outU : AUnit) : Except Err NArr :=
  match inU.convert outU with
  | .error e => .error e
  | .ok m => .ok (mat.map fun x => m * x)

/-- unit_utils.py:55-56 and 102-103. -/
def alignWaves (flux waves : NArr) : NArr :=
  if flux.shape.length > 1 ∧ waves.shape.length = 1 then waves.newAxis else waves

/-- unit_utils.py:26-69 `flam_to_fnu`. -/
noncomputable def flamToFnu (flux waves : NArr) (waveU flamU fnuU : AUnit) : Except Err NArr :=
  match NArr.zip (fun f w => f * w ^ 2 / lightSpeed) flux (alignWaves flux waves) with
  | .error e => .error e
  | .ok r => bulkConvert r (((flamU.mul waveU).mul waveU).div AUnit.metrePerSecond) fnuU

/-- unit_utils.py:72-116 `fnu_to_flam`. -/
noncomputable def fnuToFlam (flux waves : NArr) (waveU flamU fnuU : AUnit) : Except Err NArr :=
  match NArr.zip (fun f w => f * lightSpeed / w ^ 2) flux (alignWaves flux waves) with
  | .error e => .error e
  | .ok r => bulkConvert r ((fnuU.mul AUnit.metrePerSecond).div (waveU.mul waveU)) flamU

/-! ### obs_utils.py -/

open Classical in
/-- obs_utils.py:4-22 `phot_eff_function`. -/
noncomputable def photEff (snr : ℝ) : ℝ := if 5 < snr then 1 else 0

/-- obs_utils.py:25-49 `spec_eff_function`. -/
noncomputable def specEff (peakImag : ℝ) : ℝ := 1 * (1 + exp (2.36 * peakImag - 51.9))⁻¹

end LCL
