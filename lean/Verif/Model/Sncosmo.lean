import Verif.Model.Physical
import Verif.Model.Salt2

/-!
# Model of `src/lightcurvelynx/models/sncomso_models.py`

The wrapper owns a mutable sncosmo source, so the model is a state machine: every method gives the object
afterwards, also when it raises. Of sncosmo the model uses: `param_names`, the constant ranges of wavelength and
phase, `set` (assigns the given parameters one after the other, KeyError at the first unknown name), and `flux`, an
arbitrary function of the parameter values, phases and wavelengths, which may raise. Parameters handed to the
constructor and to `set` are constants. A state value `None` for a source parameter would be stored as NaN; here it
raises TypeError.
-/

namespace LCL.Sn
open LCL

/-- The sncosmo source class: what does not change. -/
structure Lib where
  names : List Name
  flux : (Name → ℝ) → List ℝ → List ℝ → Except Err (Mat ℝ)
  minwave : ℝ
  maxwave : ℝ
  minphase : ℝ
  maxphase : ℝ

/-- sncomso_models.py:58-93: a `SncosmoWrapperModel`: `named` is `source_param_names`, `src` the current parameter
values of the source, `attrs` the other attributes of the object. -/
structure Obj where
  node : Name
  setters : Dict Name ℝ
  attrs : List Name
  named : List Name
  src : Name → ℝ
  extrap : Option (ℝ → List ℝ → List ℝ → Mat ℝ)

/-- sncomso_models.py:78-93: `base` are the parameters every model has, `src` the defaults of the source. -/
def init (lib : Lib) (node : Name) (base : Dict Name ℝ) (attrs : List Name) (src : Name → ℝ)
    (extrap : Option (ℝ → List ℝ → List ℝ → Mat ℝ)) (kwargs : Dict Name ℝ) : Obj :=
  { node := node
    setters := addMissing base kwargs
    attrs := attrs
    named := kwargs.keys.filter fun k => decide (k ∈ lib.names)
    src := src
    extrap := extrap }

/-- The value of a parameter as a number. -/
def number : PVal ℝ → Except Err ℝ
  | .num x => .ok x
  | .none => .error .typeError
  | .str _ => .error .valueError

/-- sncosmo `Source.set`: the values afterwards and the exception, if any. -/
def srcSet (lib : Lib) : (Name → ℝ) → List (Name × PVal ℝ) → (Name → ℝ) × Option Err
  | s, [] => (s, none)
  | s, (k, v) :: rest =>
    if k ∈ lib.names then
      match number v with
      | .error e => (s, some e)
      | .ok x => srcSet lib (Function.update s k x) rest
    else (s, some .keyError)

/-- sncomso_models.py:142-144: the dictionary of source parameters found in the state. -/
def snParams (p : Params ℝ) : List Name → Except Err (List (Name × PVal ℝ))
  | [] => .ok []
  | k :: ks => match p.get? k with
    | none => .error .keyError
    | some v => match snParams p ks with
      | .error e => .error e
      | .ok l => .ok ((k, v) :: l)

/-- sncomso_models.py:139-145 `_update_sncosmo_model_parameters` on the (first) sample of a state. -/
def update (lib : Lib) (m : Obj) (st : SState ℝ) : Obj × Option Err :=
  match localParams st m.node with
  | .error e => (m, some e)
  | .ok p => match snParams p m.named with
    | .error e => (m, some e)
    | .ok l => ({ m with src := (srcSet lib m.src l).1 }, (srcSet lib m.src l).2)

/-- The `t0` of the state as used in `times - params["t0"]`. -/
def t0Of (p : Params ℝ) : Except Err ℝ :=
  match p.get? t0Key with
  | none => .error .keyError
  | some (.num t) => .ok t
  | some _ => .error .typeError

/-- sncomso_models.py:272-278 `flam_to_fnu` of a T x N array, row by row. -/
noncomputable def toFnu (T N : Nat) (a : Mat ℝ) (waves : List ℝ) : Except Err (Mat ℝ) :=
  match flamToFnu ⟨[N, T], fun i => (a.getD (i.getD 1 0) []).getD (i.headD 0) 0⟩
      ⟨[waves.length], fun i => waves.getD (i.headD 0) 0⟩ Salt2.unitAA Salt2.unitFlam Salt2.unitNJy with
  | .error e => .error e
  | .ok r => .ok ((List.range T).map fun i => (List.range N).map fun j => r.get [j, i])

/-- sncomso_models.py:270-279: the source at its current parameters. -/
noncomputable def direct (lib : Lib) (m : Obj) (p : Params ℝ) (times waves : List ℝ) : Except Err (Mat ℝ) :=
  match t0Of p with
  | .error e => .error e
  | .ok t0 => match lib.flux m.src (times.map fun t => t - t0) waves with
    | .error e => .error e
    | .ok a => toFnu times.length waves.length a waves

/-- sncomso_models.py:267. -/
noncomputable def outside (lib : Lib) (waves : List ℝ) : Bool :=
  waves.any fun w => decide (w < lib.minwave) || decide (lib.maxwave < w)

/-- sncomso_models.py:243-279, called from the extrapolation: there all wavelengths lie in the range. (If the range
were empty the two functions would call each other without end.) -/
noncomputable def inner (lib : Lib) (m : Obj) (st : SState ℝ) (times waves : List ℝ) : Obj × Except Err (Mat ℝ) :=
  match localParams st m.node with
  | .error e => (m, .error e)
  | .ok p => match update lib m st with
    | (m, some e) => (m, .error e)
    | (m, none) => if outside lib waves then (m, .error .recursion) else (m, direct lib m p times waves)

/-- The object as the base class sees it. -/
noncomputable def asSED (lib : Lib) (m : Obj) (compute : SState ℝ → List ℝ → List ℝ → Except Err (Mat ℝ)) : SEDModel Unit Unit Unit ℝ :=
  { nodeString := m.node
    setters := []
    computeSed := fun _ => compute
    minwave := fun _ => some lib.minwave
    maxwave := fun _ => some lib.maxwave
    extrap := m.extrap
    applyRedshift := true
    restEffects := []
    obsEffects := [] }

/-- sncomso_models.py:243-279 `compute_sed`. -/
noncomputable def compute (lib : Lib) (m : Obj) (st : SState ℝ) (times waves : List ℝ) : Obj × Except Err (Mat ℝ) :=
  match localParams st m.node with
  | .error e => (m, .error e)
  | .ok p => match update lib m st with
    | (m, some e) => (m, .error e)
    | (m, none) =>
      if outside lib waves then
        ((update lib m st).1,
          (asSED lib m fun st ts ws => (inner lib m st ts ws).2).sedExtrapolated () times waves st ())
      else (m, direct lib m p times waves)

/-- What can be done with the object besides `set`: sampling it (with the first sample of the state sampled), and
computing a spectrum. -/
inductive Op
  | sample (first : SState ℝ)
  | compute (st : SState ℝ) (times waves : List ℝ)

/-- sncomso_models.py:180-207 `_sample_helper` and 243-279 `compute_sed`: the object afterwards. -/
noncomputable def step (lib : Lib) (m : Obj) : Op → Obj
  | .sample st => (update lib m st).1
  | .compute st times waves => (compute lib m st times waves).1

/-- A history of calls, raising or not. -/
noncomputable def run (lib : Lib) (m : Obj) (ops : List Op) : Obj := ops.foldl (step lib) m

/-- sncomso_models.py:171-177: the loop of `set`. -/
def setLoop : Obj → List (Name × ℝ) → Obj × Option Err
  | m, [] => (m, none)
  | m, (k, v) :: rest =>
    if m.setters.has k = false ∧ k ∈ m.attrs then (m, some .keyError)
    else setLoop { m with
      setters := m.setters.set k v
      named := if k ∈ m.named then m.named else m.named ++ [k] } rest

/-- sncomso_models.py:161-178 `set`. -/
def set (lib : Lib) (m : Obj) (kwargs : List (Name × ℝ)) : Obj × Option Err :=
  match setLoop m kwargs with
  | (m, some e) => (m, some e)
  | (m, none) =>
    let l := kwargs.map fun kv => (kv.1, PVal.num kv.2)
    ({ m with src := (srcSet lib m.src l).1 }, (srcSet lib m.src l).2)

/-- sncomso_models.py:147-159 `get`. -/
def get (lib : Lib) (m : Obj) (name : Name) : Except Err ℝ :=
  if name ∈ lib.names then .ok (m.src name) else .error .keyError

end LCL.Sn
