import Verif.Model.RandomNodes
import Verif.Model.BasicModels
import Mathlib.Analysis.SpecialFunctions.Complex.Arg
import Mathlib.Analysis.SpecialFunctions.Log.Base

/-!
# Model of the supernova positions and the cosmology nodes

`astro_utils/snia_utils.py` lines 285-420: `DistModFromRedshift` and `SNCoordGivenPhysicalSep`. The cosmology (astropy's
`FlatLambdaCDM`) enters as arbitrary functions of the redshift; `directional_offset_by` is modelled line by line.
-/

namespace LCL.SnCoord
open LCL LCL.RandomNodes

/-- A constructor argument: what matters is its Python type. -/
inductive CosmoArg
  | float (x : ℝ)
  | int (k : Int)
  | node

/-- snia_utils.py:300-304 and 350-354: the cosmology's constants. `isinstance(H0, float)` is true of floats only. -/
def cosmoArgs (h0 om : CosmoArg) : Except Err (ℝ × ℝ) :=
  match h0, om with
  | .float a, .float b => .ok (a, b)
  | _, _ => .error .valueError

/-- snia_utils.py:313-326 `_distmod_from_redshift` with astropy's `distmod`: `5 log10 |d_L / 10 pc|`, `d_L` in Mpc. -/
noncomputable def distmod (lumDist : ℝ → ℝ) (z : ℝ) : ℝ := 5 * Real.logb 10 |lumDist z| + 25

/-- `np.arctan2(y, x)`. -/
noncomputable def arctan2 (y x : ℝ) : ℝ := Complex.arg ⟨x, y⟩

/-- `Angle.wrap_at(360 deg)`: the representative in [0, 360). -/
noncomputable def wrap360 (x : ℝ) : ℝ := x - 360 * (⌊x / 360⌋ : ℝ)

/-- `astropy.coordinates.offset_by` (used by `SkyCoord.directional_offset_by`): all arguments in radians, the result is longitude and latitude
in degrees. -/
noncomputable def offsetBy (lon lat posang dist : ℝ) : ℝ × ℝ :=
  open Classical in
  let cosa := Real.cos dist
  let sina := Real.sin dist
  let cosc := Real.sin lat
  let sinc := Real.cos lat
  let cosB := Real.cos posang
  let sinB := Real.sin posang
  let cosb := cosc * cosa + sinc * sina * cosB
  let xsinA := sina * sinB * sinc
  let xcosA := cosa - cosb * cosc
  let A := if sinc < 1 / 10 ^ 12 then Real.pi / 2 + cosc * (Real.pi / 2 - posang) else arctan2 xsinA xcosA
  (wrap360 ((lon + A) * 180 / Real.pi), Real.arcsin cosb * 180 / Real.pi)

/-- snia_utils.py:367-387 `_host_sn_angular_separation`, in radians: kiloparsecs over megaparsecs; `angDist` is the angular diameter distance in Mpc. -/
noncomputable def angularSep (angDist : ℝ → ℝ) (sepKpc z : ℝ) : ℝ := sepKpc / 1000 / angDist z

/-- snia_utils.py:389-420 `_sn_coord` for one host; `u` is the uniform draw. -/
noncomputable def snCoord1 (angDist : ℝ → ℝ) (u hostRa hostDec sepKpc z : ℝ) : ℝ × ℝ :=
  offsetBy (hostRa * Real.pi / 180) (hostDec * Real.pi / 180) (2 * Real.pi * u) (angularSep angDist sepKpc z)

/-- snia_utils.py:389-420 `_sn_coord` called by `FunctionNode.compute` (base_models.py:932-970) in a state of `n` samples. The position angles
are drawn from numpy's global generator `glob` (line 414); the generator passed to the node, `info`, is not used. The results are arrays of `center.size`
numbers also for one sample, because the drawn array has one entry. The global state afterwards, and the `ra` and `dec` outputs. -/
noncomputable def snCoord {ρ : Type} (G : RStream ρ ℝ) (angDist : ℝ → ℝ) (hostRa hostDec sepKpc z : Nat → ℝ) (n : Nat) (glob : ρ) (_info : Option ρ) :
    ρ × Out × Out :=
  let pos := (List.range n).map fun i => snCoord1 angDist (G.val glob i) (hostRa i) (hostDec i) (sepKpc i) (z i)
  (G.adv glob n, .many (pos.map Prod.fst), .many (pos.map Prod.snd))

end LCL.SnCoord
