import Verif.Model.Physical
import Verif.Model.RandomNodes
import Mathlib.Analysis.SpecialFunctions.Pow.Real
import Mathlib.Analysis.SpecialFunctions.Sqrt

/-!
# Model of the remaining effects (`src/lightcurvelynx/effects`)

`ExtinctionEffect` (extinction.py), `Microlensing` (microlensing.py) and `WhiteNoise` (white_noise.py), as values of
`Effect` (Model/Physical.lean). Parameter setters are elements of `V`. Simplification: a flux array whose shape does not
match the times or wavelengths raises ValueError (numpy would broadcast an axis of length 1).
-/

namespace LCL.EffectLib
open LCL LCL.RandomNodes

/-- Reading a required numeric parameter handed to `apply`: None (also when it is absent) raises ValueError, a string makes
the arithmetic raise TypeError. -/
def required (p : Params ℝ) (key : Name) : Except Err ℝ :=
  match p.get? key with
  | some (.num x) => .ok x
  | some (.str _) => .error .typeError
  | _ => .error .valueError

/-- effect_model.py:31-43: the keyword arguments that become parameters of the effect (`rest_frame` and `effect_name` are
arguments of the constructor itself). -/
def effectKwargs {V : Type} (kwargs : Dict Name V) : Dict Name V :=
  kwargs.filter fun q => decide (q.1 ≠ "rest_frame".toList) && decide (q.1 ≠ "effect_name".toList)

/-! ## Dust extinction -/

/-- An extinction law of the dust_extinction package: the wavelengths (in angstrom) for which it is defined, the extinction
A(w)/A(V) and the ratio R(V). -/
structure Law where
  lo : ℝ
  hi : ℝ
  axav : ℝ → ℝ
  rv : ℝ

/-- The fraction of the light at wavelength `w` that is left. -/
noncomputable def Law.left (law : Law) (ebv w : ℝ) : ℝ := (10 : ℝ) ^ (-0.4 * law.axav w * (law.rv * ebv))

/-- The dust_extinction contract of `extinguish(wavelengths, Ebv=ebv)`: ValueError if one wavelength is outside the range of
the law, otherwise `10 ** (-0.4 * A(w)/A(V) * R(V) * E(B-V))` at each. -/
noncomputable def Law.extinguish (law : Law) (waves : List ℝ) (ebv : ℝ) : Except Err (List ℝ) :=
  if ∀ w ∈ waves, law.lo ≤ w ∧ w ≤ law.hi then .ok (waves.map (law.left ebv)) else .error .valueError

/-- The `extinction_model` argument: None, a name to look up, or an object. -/
inductive ModelArg
  | none
  | name (n : Name)
  | object (law : Law)

def ebvKey : Name := "ebv".toList

/-- extinction.py:106-140 `ExtinctionEffect.apply`; without an extinction model the attribute access raises
AttributeError. -/
noncomputable def extinctionApply (law : Option Law) (p : Params ℝ) (waves : List ℝ) (a : Mat ℝ) : Except Err (Mat ℝ) :=
  match p.get? ebvKey with
  | some (.num ebv) => match law with
    | none => .error .attributeError
    | some law => match law.extinguish waves ebv with
      | .error e => .error e
      | .ok f => if ∀ row ∈ a, row.length = waves.length then .ok (a.map fun row => List.zipWith (· * ·) row f) else .error .valueError
  | some (.str _) => .error .typeError
  | _ => .error .valueError

/-- extinction.py:81-104: looking the law up by name; the keyword arguments go to the constructor of the law. -/
def loadLaw {V : Type} (load : Name → Dict Name V → Except Err Law) (kwargs : Dict Name V) : ModelArg → Except Err (Option Law)
  | .none => .ok none
  | .object law => .ok (some law)
  | .name n => match load n kwargs with
    | .error e => .error e
    | .ok law => .ok (some law)

/-- extinction.py:47-52: the frame. -/
def frameArg : Option Name → Except Err Bool
  | some f => if f = "observer".toList then .ok false else if f = "rest".toList then .ok true else .error .valueError
  | none => .error .valueError

/-- extinction.py:41-56 and 106-140; `apply_bandflux` is not overridden (effect_model.py:120). -/
noncomputable def extinction {V R : Type} (load : Name → Dict Name V → Except Err Law) (arg : ModelArg) (ebv : V)
    (frame : Option Name) (kwargs : Dict Name V) : Except Err (Effect V R ℝ) :=
  match frameArg frame with
  | .error e => .error e
  | .ok rest => match loadLaw load kwargs arg with
    | .error e => .error e
    | .ok law => .ok
      { restFrame := rest
        parameters := (effectKwargs kwargs).set ebvKey ebv
        apply := fun p _ waves r a => match extinctionApply law p waves a with
          | .error e => .error e
          | .ok b => .ok (b, r)
        applyBand := fun _ _ _ _ _ => .error .notImplemented }

/-! ## Microlensing -/

/-- The contract of `VBMicrolensing.PSPLLightCurve([log u0, log tE, t0], times)[0]` at one time: the point-source point-lens
magnification at the separation `u`. For `u0 <= 0` or `tE <= 0` numpy's logarithm is NaN (-inf at 0); the properties assume
positive values. -/
noncomputable def pspl (logU0 logTE t0 t : ℝ) : ℝ :=
  let u := Real.sqrt (((t - t0) * Real.exp (-logTE)) ^ 2 + Real.exp logU0 ^ 2)
  (u ^ 2 + 2) / (u * Real.sqrt (u ^ 2 + 4))

/-- `if not apply_microlensing`: the truth value of the argument. -/
def truthy : Option (PVal ℝ) → Prop
  | some (.num x) => x ≠ 0
  | some (.str s) => s ≠ []
  | _ => False

def applyKey : Name := "apply_microlensing".toList
def lensT0Key : Name := "microlensing_t0".toList
def u0Key : Name := "u_0".toList
def tEKey : Name := "t_E".toList

/-- microlensing.py:127-145 and 199-214: the magnifications at the given times. -/
noncomputable def magnifications (p : Params ℝ) (times : List ℝ) : Except Err (List ℝ) :=
  match required p lensT0Key with
  | .error e => .error e
  | .ok t0 => match required p u0Key with
    | .error e => .error e
    | .ok u0 => match required p tEKey with
      | .error e => .error e
      | .ok tE => .ok (times.map (pspl (Real.log u0) (Real.log tE) t0))

open Classical in
/-- microlensing.py:79-148 `Microlensing.apply`. -/
noncomputable def microlensingApply (p : Params ℝ) (times : List ℝ) (a : Mat ℝ) : Except Err (Mat ℝ) :=
  if truthy (p.get? applyKey) then match magnifications p times with
    | .error e => .error e
    | .ok ms => if a.length = ms.length then .ok (List.zipWith (fun row m => row.map (· * m)) a ms) else .error .valueError
  else .ok a

open Classical in
/-- microlensing.py:150-219 `Microlensing.apply_bandflux`. -/
noncomputable def microlensingBand (p : Params ℝ) (times : List ℝ) (b : List ℝ) : Except Err (List ℝ) :=
  if truthy (p.get? applyKey) then match magnifications p times with
    | .error e => .error e
    | .ok ms => if b.length = ms.length then .ok (List.zipWith (· * ·) b ms) else .error .valueError
  else .ok b

/-- microlensing.py:55-77: the setter of `apply_microlensing`. `binary q` is the node `BinarySampler(q)`
(given_sampler.py:26-31), `always` the constant True. -/
noncomputable def applySetter {V : Type} (binary : ℝ → V) (always : V) (q : ℝ) : Except Err V :=
  if q < 1 then (if q < 0 ∨ 1 < q then .error .valueError else .ok (binary q)) else .ok always

/-- microlensing.py:55-219; a `rest_frame` among the keyword arguments is given twice to the constructor of the base class. -/
noncomputable def microlensing {V R : Type} (binary : ℝ → V) (always t0 u0 tE : V) (q : ℝ) (kwargs : Dict Name V) : Except Err (Effect V R ℝ) :=
  if kwargs.has "rest_frame".toList then .error .typeError
  else match applySetter binary always q with
    | .error e => .error e
    | .ok s => .ok
      { restFrame := false
        parameters := ((((effectKwargs kwargs).set lensT0Key t0).set u0Key u0).set tEKey tE).set applyKey s
        apply := fun p times _ r a => match microlensingApply p times a with
          | .error e => .error e
          | .ok b => .ok (b, r)
        applyBand := fun p times _ r b => match microlensingBand p times b with
          | .error e => .error e
          | .ok c => .ok (c, r) }

/-! ## White noise -/

/-- The random numbers an evaluation can use: the generator given as `rng_info`, if any, and the entropy of the operating
system, from which `np.random.default_rng()` starts a new generator. -/
structure Rng (ρ : Type) where
  given : Option ρ
  entropy : ρ

/-- `rng.normal(loc=row, scale=sigma)`, with the standard normal draws number `k`, `k+1`, ... -/
def noisyRow {ρ : Type} (G : RStream ρ ℝ) (g : ρ) (sigma : ℝ) : Nat → List ℝ → List ℝ
  | _, [] => []
  | k, x :: row => (x + sigma * G.val g k) :: noisyRow G g sigma (k + 1) row

/-- The same for a matrix, in C order. -/
def noisyRows {ρ : Type} (G : RStream ρ ℝ) (g : ρ) (sigma : ℝ) : Nat → Mat ℝ → Mat ℝ
  | _, [] => []
  | k, row :: a => noisyRow G g sigma k row :: noisyRows G g sigma (k + row.length) a

/-- white_noise.py:55-57: the generator used, and the random state after `n` draws from it. -/
def Rng.use {ρ : Type} (G : RStream ρ ℝ) (r : Rng ρ) (n : Nat) : ρ × Rng ρ :=
  match r.given with
  | some g => (g, { r with given := some (G.adv g n) })
  | none => (r.entropy, { r with entropy := G.adv r.entropy n })

def sigmaKey : Name := "white_noise_sigma".toList

/-- white_noise.py:52-57; numpy raises ValueError for a negative scale. -/
noncomputable def noiseSigma (p : Params ℝ) : Except Err ℝ :=
  match required p sigmaKey with
  | .error e => .error e
  | .ok s => if s < 0 then .error .valueError else .ok s

/-- white_noise.py:15-99. -/
noncomputable def whiteNoise {V ρ : Type} (G : RStream ρ ℝ) (sigma : V) (restFrame : Bool) : Effect V (Rng ρ) ℝ where
  restFrame := restFrame
  parameters := [(sigmaKey, sigma)]
  apply := fun p _ _ r a => match noiseSigma p with
    | .error e => .error e
    | .ok s => .ok (noisyRows G (r.use G (a.map List.length).sum).1 s 0 a, (r.use G (a.map List.length).sum).2)
  applyBand := fun p _ _ r b => match noiseSigma p with
    | .error e => .error e
    | .ok s => .ok (noisyRow G (r.use G b.length).1 s 0 b, (r.use G b.length).2)

end LCL.EffectLib
