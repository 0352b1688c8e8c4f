import Verif.Model.Sncosmo

/-!
# Model of `src/lightcurvelynx/models/redback_models.py`

A setter (what a parameter is set from) is an element of an arbitrary type `V`. The redback library is an arbitrary function that builds a
time-series source from times and keyword arguments, or raises; the source has a range of wavelengths and a flux function. Looking the source
up by its name and the citation (lines 101-120) are not modelled.
-/

namespace LCL.Redback
open LCL

/-- redback_models.py:198-202: the object the source function returns. -/
structure Result where
  minwave : ℝ
  maxwave : ℝ
  flux : List ℝ → List ℝ → Except Err (Mat ℝ)

/-- The source function, called with the shifted times and keyword arguments. -/
abbrev Source := List ℝ → Dict Name (PVal ℝ) → Except Err Result

/-- A `RedbackWrapperModel` after construction. `attrs` are the attributes of the object that are not parameters. -/
structure Obj (V : Type) where
  node : Name
  setters : Dict Name V
  named : List Name
  source : Source
  extrap : Option (ℝ → List ℝ → List ℝ → Mat ℝ)
  applyRedshift : Bool

/-- redback_models.py:72-77: the check for keys given twice. -/
def clash {V : Type} (parameters kwargs : Dict Name V) : Bool := parameters.keys.any fun k => kwargs.has k

/-- redback_models.py:82-88: the parameters of the dictionary and the outputs of the prior node that the dictionary does not name; `priors`
lists the outputs with the values `getattr` finds for them. -/
def merge {V : Type} (parameters : Dict Name V) : List (Name × V) → Dict Name V
  | [] => parameters
  | (k, v) :: rest => merge (if parameters.has k then parameters else parameters.set k v) rest

/-- redback_models.py:93-99: set a parameter that exists, add one that does not (KeyError on an attribute of that name, base_models.py:483-487). -/
def addAll {V : Type} (attrs : List Name) : Dict Name V → List Name → List (Name × V) → Except Err (Dict Name V × List Name)
  | setters, named, [] => .ok (setters, named)
  | setters, named, (k, v) :: rest =>
    if setters.has k = false ∧ k ∈ attrs then .error .keyError
    else addAll attrs (setters.set k v) (named ++ [k]) rest

/-- redback_models.py:59-123. `base` is what `super().__init__(**kwargs)` makes of the keyword arguments (`Model/PhysicalInit.lean`), `attrs`
the attributes the object has by then. -/
def init {V : Type} (base : Dict Name V → Except Err (Dict Name V)) (attrs : List Name) (node : Name) (source : Source)
    (extrap : Option (ℝ → List ℝ → List ℝ → Mat ℝ)) (priors : List (Name × V)) (parameters kwargs : Dict Name V) : Except Err (Obj V) :=
  if clash parameters kwargs then .error .valueError
  else match base kwargs with
    | .error e => .error e
    | .ok setters => match addAll attrs setters [] (merge parameters priors) with
      | .error e => .error e
      | .ok (setters, named) =>
        .ok { node := node, setters := setters, named := named, source := source, extrap := extrap, applyRedshift := false }

/-- redback_models.py:191-193: `None` counts as 0. -/
def t0Of (p : Params ℝ) : Except Err ℝ :=
  match p.get? t0Key with
  | none => .ok 0
  | some .none => .ok 0
  | some (.num t) => .ok t
  | some (.str _) => .error .typeError

/-- redback_models.py:208. -/
noncomputable def outside (rb : Result) (waves : List ℝ) : Bool :=
  waves.any fun w => decide (w < rb.minwave) || decide (rb.maxwave < w)

/-- The object as the base class sees it. redback_models.py:130-162: the range of wavelengths is 0 to infinity; an upper limit of infinity acts
as no limit (`none`) for the wavelengths the theorems are about, which are not negative. -/
def asSED {V R : Type} (m : Obj V) (rest obs : List (Effect V R ℝ)) (compute : SState ℝ → List ℝ → List ℝ → Except Err (Mat ℝ)) :
    SEDModel V Unit R ℝ :=
  { nodeString := m.node
    setters := m.setters
    computeSed := fun _ => compute
    minwave := fun _ => some 0
    maxwave := fun _ => none
    extrap := m.extrap
    applyRedshift := m.applyRedshift
    restEffects := rest
    obsEffects := obs }

/-- redback_models.py:164-220 `compute_sed`, with at most the given number of nested calls (Python's recursion limit). -/
noncomputable def compute {V : Type} (m : Obj V) : Nat → SState ℝ → List ℝ → List ℝ → Except Err (Mat ℝ)
  | 0, _, _, _ => .error .recursion
  | n + 1, st, times, waves =>
    match localParams st m.node with
    | .error e => .error e
    | .ok p => match Sn.snParams p m.named with
      | .error e => .error e
      | .ok args => match t0Of p with
        | .error e => .error e
        | .ok t0 => match m.source (times.map fun t => t - t0) args with
          | .error e => .error e
          | .ok rb =>
            if outside rb waves then
              (asSED (R := Unit) m [] [] (compute m n)).sedExtrapolated () times waves st ()
            else match rb.flux (times.map fun t => t - t0) waves with
              | .error e => .error e
              | .ok a => Sn.toFnu times.length waves.length a waves

/-- physical_model.py:400-463 on this model: `evaluate_sed` of a state with one sample. -/
noncomputable def evaluate {V R : Type} (m : Obj V) (limit : Nat) (rest obs : List (Effect V R ℝ)) (times waves : List ℝ) (st : SState ℝ)
    (r : R) : Except Err (Mat ℝ × R) :=
  (asSED m rest obs (compute m limit)).evaluateSingle () times waves st r ()

end LCL.Redback
