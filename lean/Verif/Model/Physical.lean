import Verif.Base.Py
import Verif.Base.Num
import Verif.Model.PassbandGroup

/-!
# Model of `SEDModel` and `BandfluxModel` (`src/lightcurvelynx/models/physical_model.py`)

A flux density array of shape T x N is a list of T rows. A single-sample `GraphState` is a dictionary
from node names to their parameters (its storage is modelled in `Model/GraphState.lean`). The random
state handed around as `rng_info` is a value `R` that every effect may consume and change; extra keyword
arguments (`**kwargs`) are an element of `W`, with `noKw` for none. Arithmetic is exact.
Simplification: a compute_sed or extrapolator whose result does not have the requested shape makes the
assignment raise ValueError (numpy would broadcast a length-1 axis).
-/

namespace LCL
variable {K : Type} [Field K] [LinearOrder K]

/-- A T x N array, as the list of its rows. -/
abbrev Mat (K : Type) := List (List K)

/-- The value of a node parameter in a single-sample state. -/
inductive PVal (K : Type)
  | none
  | num (x : K)
  | str (s : Name)

/-- `graph_state[node_string]` of a single-sample state: the parameters of one node. -/
abbrev Params (K : Type) := Dict Name (PVal K)

/-- A single-sample `GraphState`: node name to parameters. -/
abbrev SState (K : Type) := Dict Name (Params K)

/-- effects/effect_model.py:4-120: an effect is arbitrary code with a frame, given parameter setters of
type `V`. -/
structure Effect (V R K : Type) where
  restFrame : Bool
  parameters : Dict Name V
  apply : Params K → List K → List K → R → Mat K → Except Err (Mat K × R)
  applyBand : Params K → List K → List Name → R → List K → Except Err (List K × R)

/-- physical_model.py:61-275: the attributes of an `SEDModel` used by evaluation. `computeSed`, `minwave`,
`maxwave` are the subclass's methods. `setters` are the model's parameters. -/
structure SEDModel (V W R K : Type) where
  nodeString : Name
  setters : Dict Name V
  computeSed : W → SState K → List K → List K → Except Err (Mat K)
  minwave : SState K → Option K
  maxwave : SState K → Option K
  extrap : Option (K → List K → List K → Mat K)
  applyRedshift : Bool
  restEffects : List (Effect V R K)
  obsEffects : List (Effect V R K)

/-- base_models.py:327-354 `get_local_params` (a missing node raises KeyError). -/
def localParams (st : SState K) (node : Name) : Except Err (Params K) :=
  match st.get? node with
  | some p => .ok p
  | none => .error .keyError

/-- `a.min()`, `None` on an empty array (numpy raises ValueError). -/
def npMin : List K → Option K
  | [] => none
  | x :: l => some (l.foldl min x)

/-- `a.max()`, `None` on an empty array (numpy raises ValueError). -/
def npMax : List K → Option K
  | [] => none
  | x :: l => some (l.foldl max x)

/-- `row[mask] = vals`: put the values, in order, at the positions where the mask holds. -/
def scatter : List Bool → List K → List K → List K
  | true :: m, _ :: d, v :: vs => v :: scatter m d vs
  | true :: m, x :: d, [] => x :: scatter m d []
  | false :: m, x :: d, vs => x :: scatter m d vs
  | _, d, _ => d

/-- `a[:, mask] = b` for a T x N array `a`: ValueError unless `b` has T rows of as many entries as the mask
has True. -/
def assignCols (mask : List Bool) (a b : Mat K) : Except Err (Mat K) :=
  if a.length = b.length ∧ ∀ row ∈ b, row.length = mask.count true then
    .ok (List.zipWith (scatter mask) a b)
  else .error .valueError

/-- `a[:, k]` for a column that exists (0 stands for a missing entry, which does not occur on arrays of the
right shape). -/
def column (a : Mat K) (k : Nat) : List K := a.map fun row => row.getD k 0

/-- physical_model.py:366-398: the general case of `compute_sed_with_extrapolation` (the call of
compute_sed drops the keyword arguments, line 374). -/
def SEDModel.extrapolated {V W R : Type} (m : SEDModel V W R K) (noKw : W) (times waves : List K) (st : SState K)
    (lo hi : K) : Except Err (Mat K) :=
  let before := waves.map fun w => decide (w < lo)
  let after := waves.map fun w => decide (hi < w)
  let inside := waves.map fun w => !decide (w < lo) && !decide (hi < w)
  match m.computeSed noKw st times (lo :: (waves.filter fun w => !decide (w < lo) && !decide (hi < w)) ++ [hi]) with
  | .error e => .error e
  | .ok flux =>
    match assignCols inside (times.map fun _ => waves.map fun _ => 0) (flux.map fun row => row.tail.dropLast) with
    | .error e => .error e
    | .ok d =>
      match m.extrap with
      | none => .ok d
      | some ex =>
        match assignCols before d (ex lo (column flux 0) (waves.filter fun w => decide (w < lo))) with
        | .error e => .error e
        | .ok d => assignCols after d (ex hi (flux.map fun row => row.getLastD 0) (waves.filter fun w => decide (hi < w)))

/-- physical_model.py:333-398 `compute_sed_with_extrapolation`. -/
def SEDModel.sedExtrapolated {V W R : Type} (m : SEDModel V W R K) (noKw : W) (times waves : List K) (st : SState K)
    (kw : W) : Except Err (Mat K) :=
  match npMin waves, npMax waves with
  | some qlo, some qhi =>
    let lo := (m.minwave st).getD qlo
    let hi := (m.maxwave st).getD qhi
    if lo ≤ qlo ∧ qhi ≤ hi then m.computeSed kw st times waves
    else m.extrapolated noKw times waves st lo hi
  | _, _ => .error .valueError

/-- astro_utils/redshift.py:33-35. -/
def obsToRestTime (z t0 t : K) : K := (t - t0) / (1 + z) + t0

/-- astro_utils/redshift.py:36. -/
def obsToRestWave (z w : K) : K := w / (1 + z)

/-- astro_utils/redshift.py:58 `rest_to_obs_flux`. -/
def restToObsFlux (z : K) (a : Mat K) : Mat K := a.map fun row => row.map fun x => x * (1 + z)

/-- physical_model.py:440-447 and 455-462: apply effects in list order. -/
def applyEffects {V R : Type} (p : Params K) (times waves : List K) :
    List (Effect V R K) → R → Mat K → Except Err (Mat K × R)
  | [], r, a => .ok (a, r)
  | e :: es, r, a => match e.apply p times waves r a with
    | .error err => .error err
    | .ok (a', r') => applyEffects p times waves es r' a'

/-- physical_model.py:670-677: apply effects to bandfluxes in list order. -/
def applyBandEffects {V R : Type} (p : Params K) (times : List K) (filters : List Name) :
    List (Effect V R K) → R → List K → Except Err (List K × R)
  | [], r, a => .ok (a, r)
  | e :: es, r, a => match e.applyBand p times filters r a with
    | .error err => .error err
    | .ok (a', r') => applyBandEffects p times filters es r' a'

def redshiftKey : Name := "redshift".toList
def t0Key : Name := "t0".toList

/-- physical_model.py:426-436, 450: `none` when no redshifting is done, otherwise the redshift and t0.
`params["redshift"] != 0.0` holds for None and for a string; a string redshift makes the later arithmetic
raise TypeError. -/
def redshiftOf (apply : Bool) (p : Params K) : Except Err (Option (K × K)) :=
  if apply then
    match p.get? redshiftKey with
    | none => .error .keyError
    | some .none => .error .valueError
    | some (.num z) =>
      if z = 0 then .ok none
      else match p.get? t0Key with
        | none => .error .valueError
        | some .none => .error .valueError
        | some (.num t0) => .ok (some (z, t0))
        | some (.str _) => .error .typeError
    | some (.str _) => match p.get? t0Key with
        | none => .error .valueError
        | some .none => .error .valueError
        | _ => .error .typeError
  else .ok none

/-- physical_model.py:431-436: the times in the rest frame. -/
def restTimesOf (zs : Option (K × K)) (times : List K) : List K :=
  match zs with
  | some (z, t0) => times.map (obsToRestTime z t0)
  | none => times

/-- physical_model.py:431-436: the wavelengths in the rest frame. -/
def restWavesOf (zs : Option (K × K)) (waves : List K) : List K :=
  match zs with
  | some (z, _) => waves.map (obsToRestWave z)
  | none => waves

/-- physical_model.py:450-452. -/
def scaleBack (zs : Option (K × K)) (a : Mat K) : Mat K :=
  match zs with
  | some (z, _) => restToObsFlux z a
  | none => a

/-- physical_model.py:400-463 `_evaluate_single` (on a state with one sample). -/
def SEDModel.evaluateSingle {V W R : Type} (m : SEDModel V W R K) (noKw : W) (times waves : List K) (st : SState K)
    (r : R) (kw : W) : Except Err (Mat K × R) :=
  match localParams st m.nodeString with
  | .error e => .error e
  | .ok p =>
    match redshiftOf m.applyRedshift p with
    | .error e => .error e
    | .ok zs =>
      match m.sedExtrapolated noKw (restTimesOf zs times) (restWavesOf zs waves) st kw with
      | .error e => .error e
      | .ok a =>
        match applyEffects p (restTimesOf zs times) (restWavesOf zs waves) m.restEffects r a with
        | .error e => .error e
        | .ok (a, r) => applyEffects p times waves m.obsEffects r (scaleBack zs a)

/-- physical_model.py:502-524 `evaluate_sed` on a given state, as the list of its samples: one result per
sample, the random state threaded through in order. (With one sample the code returns the array itself
rather than a length-1 stack.) -/
def SEDModel.evaluateSed {V W R : Type} (m : SEDModel V W R K) (noKw : W) (times waves : List K) (kw : W) :
    List (SState K) → R → Except Err (List (Mat K) × R)
  | [], r => .ok ([], r)
  | st :: sts, r => match m.evaluateSingle noKw times waves st r kw with
    | .error e => .error e
    | .ok (a, r) => match m.evaluateSed noKw times waves kw sts r with
      | .error e => .error e
      | .ok (rest, r) => .ok (a :: rest, r)

/-- `np.unique` of an array of strings: sorted, without repetition. -/
def npUnique (l : List Name) : List Name := (l.mergeSort (fun a b => decide (a ≤ b))).dedup

/-- `a[mask]`. -/
def gather {β : Type} (mask : List Bool) (a : List β) : List β := ((a.zip mask).filter (·.2)).map (·.1)

/-- physical_model.py:526-559 `_evaluate_bandfluxes_single`: the loop over the distinct filters, on the array
of results so far. `evalSed` is `evaluate_sed` on the given state. -/
def bandfluxLoop {R : Type} (evalSed : List K → List K → R → Except Err (Mat K × R)) (g : PassbandGroup K)
    (times : List K) (filters : List Name) : List Name → R → List K → Except Err (List K × R)
  | [], r, out => .ok (out, r)
  | f :: fs, r, out =>
    match g.getItem f with
    | .error e => .error e
    | .ok pb =>
      let mask := filters.map fun x => decide (x = f)
      match evalSed (gather mask times) pb.waves r with
      | .error e => .error e
      | .ok (sed, r) =>
        match pb.bandflux sed with
        | .error e => .error e
        | .ok v => bandfluxLoop evalSed g times filters fs r (scatter mask out v)

/-- physical_model.py:548-559 (`np.empty` is modelled by zeros: every entry is overwritten). -/
def bandfluxesSingle {R : Type} (evalSed : List K → List K → R → Except Err (Mat K × R)) (g : PassbandGroup K)
    (times : List K) (filters : List Name) (r : R) : Except Err (List K × R) :=
  bandfluxLoop evalSed g times filters (npUnique filters) r (times.map fun _ => 0)

/-- physical_model.py:526-559 for an `SEDModel` (evaluate_sed is called without keyword arguments). -/
def SEDModel.evaluateBandfluxesSingle {V W R : Type} (m : SEDModel V W R K) (noKw : W) (g : PassbandGroup K)
    (times : List K) (filters : List Name) (st : SState K) (r : R) : Except Err (List K × R) :=
  bandfluxesSingle (fun ts ws r => m.evaluateSingle noKw ts ws st r noKw) g times filters r

/-- physical_model.py:562-619: a `BandfluxModel`; `computeBandflux` is the subclass's method. -/
structure BandModel (V R K : Type) where
  nodeString : Name
  setters : Dict Name V
  computeBandflux : List K → List Name → SState K → R → Except Err (List K × R)
  effects : List (Effect V R K)

/-- physical_model.py:638-678. -/
def BandModel.evaluateBandfluxesSingle {V R : Type} (m : BandModel V R K) (times : List K) (filters : List Name)
    (st : SState K) (r : R) : Except Err (List K × R) :=
  match localParams st m.nodeString with
  | .error e => .error e
  | .ok p => match m.computeBandflux times filters st r with
    | .error e => .error e
    | .ok (a, r) => applyBandEffects p times filters m.effects r a

/-- physical_model.py:213-224: one row per sample, the random state threaded through. -/
def eachSample {R β : Type} (one : SState K → R → Except Err (β × R)) :
    List (SState K) → R → Except Err (List β × R)
  | [], r => .ok ([], r)
  | st :: sts, r => match one st r with
    | .error e => .error e
    | .ok (a, r) => match eachSample one sts r with
      | .error e => .error e
      | .ok (rest, r) => .ok (a :: rest, r)

/-- The first argument of `evaluate_bandfluxes`. -/
inductive BandArg (K : Type)
  | passband (pb : Passband K)
  | group (g : PassbandGroup K)

/-- physical_model.py:193-204: the group and the filters to use. -/
def BandArg.resolve (n : Nat) : BandArg K → Option (List Name) → Except Err (PassbandGroup K × List Name)
  | .passband pb, filters => match PassbandGroup.init [pb] none with
    | .error e => .error e
    | .ok g => .ok (g, filters.getD (List.replicate n pb.filterName))
  | .group _, none => .error .valueError
  | .group g, some fs => .ok (g, fs)

/-- physical_model.py:164-224 `evaluate_bandfluxes` on a given state (a list of samples); `one` is the
model's `_evaluate_bandfluxes_single`. -/
def evaluateBandfluxes {R : Type}
    (one : PassbandGroup K → List K → List Name → SState K → R → Except Err (List K × R))
    (arg : BandArg K) (times : List K) (filters : Option (List Name)) (states : List (SState K)) (r : R) :
    Except Err (List (List K) × R) :=
  match arg.resolve times.length filters with
  | .error e => .error e
  | .ok (g, fs) =>
    if fs.length ≠ times.length then .error .valueError
    else eachSample (one g times fs) states r

/-- physical_model.py:296-298 and 610-612: add the effect's parameters that the model does not have. -/
def addMissing {V : Type} (setters : Dict Name V) (ps : Dict Name V) : Dict Name V :=
  ps.foldl (fun (d : Dict Name V) p => if d.has p.1 then d else d.set p.1 p.2) setters

/-- physical_model.py:277-304 `SEDModel.add_effect`. -/
def SEDModel.addEffect {V W R : Type} (m : SEDModel V W R K) (e : Effect V R K) (skipParams : Bool := false) :
    SEDModel V W R K :=
  let m := if skipParams then m else { m with setters := addMissing m.setters e.parameters }
  if e.restFrame then { m with restEffects := m.restEffects ++ [e] }
  else { m with obsEffects := m.obsEffects ++ [e] }

/-- physical_model.py:306-308 `SEDModel.list_effects`. -/
def SEDModel.listEffects {V W R : Type} (m : SEDModel V W R K) : List (Effect V R K) := m.restEffects ++ m.obsEffects

/-- physical_model.py:595-615 `BandfluxModel.add_effect`. -/
def BandModel.addEffect {V R : Type} (m : BandModel V R K) (e : Effect V R K) (skipParams : Bool := false) :
    BandModel V R K :=
  let m := if skipParams then m else { m with setters := addMissing m.setters e.parameters }
  { m with effects := m.effects ++ [e] }

/-! ## The built-in effects -/

/-- effects/basic_effects.py:52-54: the flux fraction, from the parameters handed to the effect. -/
def fluxFraction (p : Params K) : Except Err K :=
  match p.get? "flux_fraction".toList with
  | some (.num f) => .ok f
  | some (.str _) => .error .typeError
  | _ => .error .valueError

/-- effects/basic_effects.py:6-93 `ConstantDimming`. -/
def constantDimming {V R : Type} (setter : V) (restFrame : Bool) : Effect V R K where
  restFrame := restFrame
  parameters := [("flux_fraction".toList, setter)]
  apply p _ _ r a := match fluxFraction p with
    | .error e => .error e
    | .ok f => .ok (a.map fun row => row.map fun x => x * f, r)
  applyBand p _ _ r a := match fluxFraction p with
    | .error e => .error e
    | .ok f => .ok (a.map fun x => x * f, r)

/-! ## The built-in wavelength extrapolations (`src/lightcurvelynx/utils/wave_extrapolate.py`) -/

/-- wave_extrapolate.py:8-38 `WaveExtrapolationModel`. -/
def zeroExtrapolation (_lastWave : K) (lastFlux query : List K) : Mat K :=
  lastFlux.map fun _ => query.map fun _ => 0

/-- wave_extrapolate.py:41-81 `ConstantExtrapolation`. -/
def constantExtrapolation (value : K) : Except Err (K → List K → List K → Mat K) :=
  if value < 0 then .error .valueError
  else .ok fun _ lastFlux query => lastFlux.map fun _ => query.map fun _ => value

/-- wave_extrapolate.py:84-113 `LastValueExtrapolation`. -/
def lastValueExtrapolation (_lastWave : K) (lastFlux query : List K) : Mat K :=
  lastFlux.map fun f => query.map fun _ => f

/-- `np.clip(x, 0.0, 1.0)`. -/
def clip01 (x : K) : K := min (max x 0) 1

/-- wave_extrapolate.py:116-158 `LinearDecay`. -/
def linearDecay (width : K) : Except Err (K → List K → List K → Mat K) :=
  if width ≤ 0 then .error .valueError
  else .ok fun lastWave lastFlux query =>
    lastFlux.map fun f => query.map fun q => f * clip01 (1 - |q - lastWave| / width)

/-- wave_extrapolate.py:161-204 `ExponentialDecay`, for an arbitrary function in place of `np.exp`. -/
def exponentialDecay (exp : K → K) (rate : K) : Except Err (K → List K → List K → Mat K) :=
  if rate < 0 then .error .valueError
  else .ok fun lastWave lastFlux query =>
    lastFlux.map fun f => query.map fun q => f * exp (-rate * |q - lastWave|)

end LCL
