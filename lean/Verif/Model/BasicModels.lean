import Verif.Model.Physical
import Verif.Base.Interp
import Mathlib.Analysis.SpecialFunctions.Trigonometric.Inverse
import Mathlib.Analysis.SpecialFunctions.Exp

/-!
# Model of the simple models: `models/basic_models.py`, `models/static_sed_model.py`, `models/galaxy_models.py`,
`models/spline_model.py`

Each is an `SEDModel` (or `BandModel`) of `Model/Physical.lean`; the methods not overridden have the defaults of
physical_model.py (no wavelength bounds). `None` or a string where a number is needed makes the arithmetic raise TypeError.
-/

namespace LCL
variable {K : Type} [Field K] [LinearOrder K] {V R : Type}

/-- The keyword arguments handed to `compute_sed`: `ra`, `dec`, and whether there are others. -/
structure Kw (K : Type) where
  ra : Option K
  dec : Option K
  other : Bool

/-- No keyword arguments. -/
def Kw.empty : Kw K := ⟨none, none, false⟩

/-- `params[name]` used as a number: KeyError if absent, TypeError for None and strings. -/
def numArg (p : Params K) (name : String) : Except Err K :=
  match p.get? name.toList with
  | some (.num x) => .ok x
  | some _ => .error .typeError
  | none => .error .keyError

/-- An `SEDModel` given by its compute_sed, which starts with `get_local_params`. -/
def plainSed (node : Name) (compute : Kw K → Params K → List K → List K → Except Err (Mat K)) (lo hi : Option K) : SEDModel V (Kw K) R K where
  nodeString := node
  setters := []
  computeSed kw st times waves := match localParams st node with
    | .error e => .error e
    | .ok p => compute kw p times waves
  minwave _ := lo
  maxwave _ := hi
  extrap := none
  applyRedshift := true
  restEffects := []
  obsEffects := []

/-- basic_models.py:31-51 `ConstantSEDModel.compute_sed`. -/
def constantSed (p : Params K) (times waves : List K) : Except Err (Mat K) :=
  match numArg p "brightness" with
  | .error e => .error e
  | .ok b => .ok (times.map fun _ => waves.map fun _ => b)

/-- basic_models.py:84-108 `StepModel.compute_sed`. -/
def stepSed (p : Params K) (times waves : List K) : Except Err (Mat K) :=
  match numArg p "t0" with
  | .error e => .error e
  | .ok t0 => match numArg p "t1" with
    | .error e => .error e
    | .ok t1 => match numArg p "brightness" with
      | .error e => .error e
      | .ok b => .ok (times.map fun t => waves.map fun _ => if t0 ≤ t ∧ t ≤ t1 then b else 0)

/-- basic_models.py:146-168 `SinWaveModel.compute_sed`. -/
noncomputable def sinSed (p : Params ℝ) (times waves : List ℝ) : Except Err (Mat ℝ) :=
  match numArg p "frequency" with
  | .error e => .error e
  | .ok f => match numArg p "t0" with
    | .error e => .error e
    | .ok t0 => match numArg p "brightness" with
      | .error e => .error e
      | .ok b => match numArg p "amplitude" with
        | .error e => .error e
        | .ok a => .ok (times.map fun t => waves.map fun _ => b + a * Real.sin (2 * Real.pi * f * (t - t0)))

/-- basic_models.py:253-274 `LinearWavelengthModel.compute_sed`. -/
def linearSed (p : Params K) (times waves : List K) : Except Err (Mat K) :=
  match numArg p "linear_base" with
  | .error e => .error e
  | .ok b => match numArg p "linear_scale" with
    | .error e => .error e
    | .ok s => .ok (times.map fun _ => waves.map fun w => b + s * w)

/-- basic_models.py:8-51. -/
def constantModel (node : Name) : SEDModel V (Kw K) R K := plainSed node (fun _ => constantSed) none none

/-- basic_models.py:54-108. -/
def stepModel (node : Name) : SEDModel V (Kw K) R K := plainSed node (fun _ => stepSed) none none

/-- basic_models.py:111-168. -/
noncomputable def sinModel (node : Name) : SEDModel V (Kw ℝ) R ℝ := plainSed node (fun _ => sinSed) none none

/-- basic_models.py:171-274 (the bounds are the constructor's `min_wave` and `max_wave`). -/
def linearModel (node : Name) (lo hi : Option K) : SEDModel V (Kw K) R K := plainSed node (fun _ => linearSed) lo hi

/-! ## A galaxy -/

/-- `astropy.coordinates.angular_separation`, in radians. Simplified: astropy uses the equal expression
`arctan2(hypot(..), cos)`, which is accurate for small angles. -/
noncomputable def angularSeparation (lon1 lat1 lon2 lat2 : ℝ) : ℝ :=
  Real.arccos (Real.sin lat1 * Real.sin lat2 + Real.cos lat1 * Real.cos lat2 * Real.cos (lon2 - lon1))

/-- galaxy_models.py:61-68: the distance from the centre. -/
noncomputable def galaxyDist (kw : Kw ℝ) (p : Params ℝ) : Except Err ℝ :=
  match kw.ra, kw.dec with
  | some ra, some dec => match numArg p "ra" with
    | .error e => .error e
    | .ok ra0 => match numArg p "dec" with
      | .error e => .error e
      | .ok dec0 => .ok (angularSeparation (ra0 * Real.pi / 180) (dec0 * Real.pi / 180) (ra * Real.pi / 180) (dec * Real.pi / 180))
  | _, _ => .ok 0

/-- galaxy_models.py:36-74 `GaussianGalaxy.compute_sed`. -/
noncomputable def galaxySed (kw : Kw ℝ) (p : Params ℝ) (times waves : List ℝ) : Except Err (Mat ℝ) :=
  match galaxyDist kw p with
  | .error e => .error e
  | .ok dist => match numArg p "galaxy_radius_std" with
    | .error e => .error e
    | .ok std => match numArg p "brightness" with
      | .error e => .error e
      | .ok b => .ok (times.map fun _ => waves.map fun _ => b * Real.exp (-(dist * dist) / (2 * std * std)))

/-- galaxy_models.py:7-74. -/
noncomputable def galaxyModel (node : Name) : SEDModel V (Kw ℝ) R ℝ := plainSed node galaxySed none none

/-! ## Static models -/

/-- A numpy array as far as the constructor looks at it: two dimensions (a list of rows) or more (`cube`, a list of matrices). -/
inductive SedArray (K : Type)
  | flat (n : Nat)
  | mat (rows : List (List K))
  | cube (slices : List (List (List K)))

/-- The argument `sed_values`: one numpy array, or a list of numpy arrays. -/
inductive SedArg (K : Type)
  | array (a : SedArray K)
  | list (l : List (SedArray K))

/-- `len` of an array. -/
def SedArray.len : SedArray K → Nat
  | .flat n => n
  | .mat rows => rows.length
  | .cube s => s.length

/-- The arrays an array is iterated into (`flat 0` stands for numbers, which are no arrays). -/
def SedArray.items : SedArray K → List (SedArray K)
  | .flat n => List.replicate n (.flat 0)
  | .mat rows => rows.map fun r => .flat r.length
  | .cube s => s.map .mat

/-- static_sed_model.py:47-51. -/
def SedArg.entries : SedArg K → List (SedArray K)
  | .array a => if a.len = 2 then [a] else a.items
  | .list l => l

/-- A two-row table of wavelengths and fluxes. -/
structure SedTable (K : Type) where
  waves : List K
  fluxes : List K

/-- `np.all(np.diff(a) > 0)`. -/
def diffsPositive : List K → Bool
  | a :: b :: l => decide (0 < b - a) && diffsPositive (b :: l)
  | _ => true

/-- static_sed_model.py:54-60: the check of one entry. (The rows of a numpy array have the same length.) -/
def SedArray.check : SedArray K → Except Err (SedTable K)
  | .mat [w, f] => if w.length < 2 then .error .valueError else if diffsPositive w then .ok ⟨w, f⟩ else .error .valueError
  | _ => .error .valueError

/-- static_sed_model.py:53-60: the first failing entry raises. -/
def checkTables : List (SedArray K) → Except Err (List (SedTable K))
  | [] => .ok []
  | a :: l => match a.check with
    | .error e => .error e
    | .ok t => match checkTables l with
      | .error e => .error e
      | .ok ts => .ok (t :: ts)

/-- static_sed_model.py:41-67 `__init__`: the tables. Line 66 makes a `GivenValueSampler` of the indices, which rejects an
empty list; its weights are modelled in `Model/Samplers2.lean`. -/
def staticSedInit (arg : SedArg K) : Except Err (List (SedTable K)) :=
  match checkTables arg.entries with
  | .error e => .error e
  | .ok [] => .error .valueError
  | .ok ts => .ok ts

/-- `get_param(graph_state, "selected_idx")` used as an index of a list of length `n`. Simplified: negative indices, which the
sampler never gives, are out of range. -/
def selectedIdx (st : SState K) (node : Name) (n : Nat) : Except Err Nat :=
  match localParams st node with
  | .error e => .error e
  | .ok p => match numArg p "selected_idx" with
    | .error e => .error e
    | .ok x => match (List.range n).find? (fun (i : Nat) => decide ((i : K) = x)) with
      | some i => .ok i
      | none => .error .indexError

/-- static_sed_model.py:144-213: minwave, maxwave and compute_sed, which takes no extra keyword arguments. (A state without a valid
index makes minwave raise; the model returns no bound, and compute_sed raises then.) -/
noncomputable def staticSedModel (node : Name) (tables : List (SedTable K)) : SEDModel V (Kw K) R K where
  nodeString := node
  setters := []
  computeSed kw st times waves :=
    if kw.ra.isSome ∨ kw.dec.isSome ∨ kw.other then .error .typeError
    else match selectedIdx st node tables.length with
      | .error e => .error e
      | .ok i => match tables[i]? with
        | none => .error .indexError
        | some t => .ok (times.map fun _ => waves.map fun w => npInterp t.waves t.fluxes 0 0 w)
  minwave st := match selectedIdx st node tables.length with
    | .ok i => (tables[i]?).bind fun t => t.waves.head?
    | .error _ => none
  maxwave st := match selectedIdx st node tables.length with
    | .ok i => (tables[i]?).bind fun t => t.waves.getLast?
    | .error _ => none
  extrap := none
  applyRedshift := true
  restEffects := []
  obsEffects := []

/-- static_sed_model.py:287-289: the loop over the distinct filters; a filter that is not a key raises KeyError. -/
def fillBands (values : Dict Name K) (filters : List Name) : List Name → List K → Except Err (List K)
  | [], out => .ok out
  | f :: fs, out => match values.get? f with
    | none => .error .keyError
    | some v => fillBands values filters fs (List.zipWith (fun g x => if g = f then v else x) filters out)

/-- static_sed_model.py:266-290 `StaticBandfluxModel.compute_bandflux` (the number of filters is the number of times). -/
def staticBandModel (node : Name) (bands : List (Dict Name K)) : BandModel V R K where
  nodeString := node
  setters := []
  computeBandflux times filters st r := match selectedIdx st node bands.length with
    | .error e => .error e
    | .ok i => match bands[i]? with
      | none => .error .indexError
      | some values => match fillBands values filters (npUnique filters) (times.map fun _ => 0) with
        | .error e => .error e
        | .ok out => .ok (out, r)
  effects := []

/-! ## A spline model -/

/-- `np.all(np.diff(a) >= 0)`. -/
def notDecreasing : List K → Bool
  | a :: b :: l => decide (0 ≤ b - a) && notDecreasing (b :: l)
  | _ => true

/-- scipy `RectBivariateSpline.__call__(x, y, grid=True)`: `spline` at the grid of the points, ValueError for points that are not
in nondecreasing order. -/
def gridCall (spline : K → K → K) (xs ys : List K) : Except Err (Mat K) :=
  if notDecreasing xs && notDecreasing ys then .ok (xs.map fun x => ys.map (spline x)) else .error .valueError

/-- spline_model.py:166-191 `SplineModel.compute_sed`; `spline` is the fitted bivariate spline as a function. -/
def splineSed (spline : K → K → K) (p : Params K) (times waves : List K) : Except Err (Mat K) :=
  match p.get? "t0".toList with
  | none => .error .keyError
  | some (.str _) => .error .typeError
  | some t0 => match numArg p "amplitude" with
    | .error e => .error e
    | .ok a =>
      let shift : K := match t0 with | .num x => x | _ => 0
      match gridCall spline (times.map fun t => t - shift) waves with
      | .error e => .error e
      | .ok m => .ok (m.map fun row => row.map fun x => a * x)

/-- spline_model.py:14-191: the bounds are the first and last wavelength of the grid. -/
def splineModel (node : Name) (spline : K → K → K) (gridWaves : List K) : SEDModel V (Kw K) R K :=
  plainSed node (fun _ => splineSed spline) gridWaves.head? gridWaves.getLast?

end LCL
