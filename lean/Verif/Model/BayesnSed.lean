import Verif.Model.Bayesn
import Verif.Model.Sncosmo
import Verif.Model.EffectLib

/-!
# `BayesnModel` (`src/lightcurvelynx/models/bayesn.py` lines 95-127 and 445-506)

The extinction law is the one `ExtinctionEffect(extinction_model="F99")` finds, with its own ratio R(V) (3.1 for F99). The dust_extinction contract is that of
Model/EffectLib. Simplifications: the arrays read from the model's files have matching shapes; real arithmetic; `Rv == 0` raises ZeroDivisionError (numpy numbers
give a warning and infinite values).
-/

namespace LCL.BayesnSed
open LCL LCL.Bayesn LCL.EffectLib

/-- bayesn.py:118-127: what is read from the files. -/
structure Files where
  w0 : List (List ℝ)
  w1 : List (List ℝ)
  lKnots : List ℝ
  tauKnots : List ℝ
  phase : List ℝ
  wave : List ℝ
  flux : List (List ℝ)

/-- `params[key]` used in arithmetic: KeyError when absent, TypeError when it is None or a string. -/
def num (p : Params ℝ) (key : Name) : Except Err ℝ :=
  match p.get? key with
  | none => .error .keyError
  | some (.num x) => .ok x
  | some _ => .error .typeError

def thetaKey : Name := "theta".toList
def avKey : Name := "Av".toList
def rvKey : Name := "Rv".toList
def amplitudeKey : Name := "Amplitude".toList

/-- bayesn.py:476: `W_0 + theta * W_1`. -/
noncomputable def weights (F : Files) (theta : ℝ) : List (List ℝ) := List.zipWith (fun a b => List.zipWith (fun x y => x + theta * y) a b) F.w0 F.w1

/-- bayesn.py:477-484: the entry of `W_grid` at phase `r` and wavelength `q`, for the two spline matrices. -/
noncomputable def warp (F : Files) (theta : ℝ) (wl wt : Nat → Nat → ℝ) (q r : ℝ) : ℝ :=
  ((List.range F.lKnots.length).map fun a => basisRow F.lKnots wl q a *
    ((List.range F.tauKnots.length).map fun b => basisRow F.tauKnots wt r b * val ((weights F theta).getD a []) b).sum).sum

/-- bayesn.py:485-492: the flux density before the amplitude. -/
noncomputable def reddened (F : Files) (law : Law) (theta : ℝ) (wl wt : Nat → Nat → ℝ) (av rv : ℝ) (taus waves : List ℝ) : Except Err (Mat ℝ) :=
  if rv = 0 then .error .zeroDivision
  else extinctionApply (some law) [(ebvKey, .num (av / rv))] waves
    (taus.map fun r => waves.map fun q => template F.phase F.wave F.flux r q * (10 : ℝ) ^ (-0.4 * warp F theta wl wt q r))

/-- bayesn.py:445-506 `compute_sed`. -/
noncomputable def computeSed (F : Files) (law : Law) (node : Name) (st : SState ℝ) (times waves : List ℝ) : Except Err (Mat ℝ) := do
  let p ← localParams st node
  let t0 ← num p t0Key
  let theta ← num p thetaKey
  let wl ← computeInvkd F.lKnots
  let wt ← computeInvkd F.tauKnots
  let av ← num p avKey
  let rv ← num p rvKey
  let a ← reddened F law theta wl wt av rv (times.map fun t => t - t0) waves
  let amp ← num p amplitudeKey
  Sn.toFnu times.length waves.length (a.map fun row => row.map fun x => x * amp) waves

/-- bayesn.py:12 `BayesnModel`; its wavelength range is unbounded (physical_model.py:97-133). -/
noncomputable def model {V W R : Type} (F : Files) (law : Law) (node : Name) : SEDModel V W R ℝ where
  nodeString := node
  setters := []
  computeSed := fun _ st ts ws => computeSed F law node st ts ws
  minwave := fun _ => none
  maxwave := fun _ => none
  extrap := none
  applyRedshift := true
  restEffects := []
  obsEffects := []

end LCL.BayesnSed
