import Verif.Model.Physical

/-!
# Model of composite models (`src/lightcurvelynx/models/multi_object_model.py`)

A physical model is an SED model, a bandflux model, or a composite of physical models (composites may be
nested). Objects are values: one object listed twice counts as two (in Python a rest-frame effect added to
the composite would be appended twice to the shared object).
-/

namespace LCL
variable {K : Type} [Field K] [LinearOrder K]

/-- The subclasses of `BasePhysicalModel`: physical_model.py:227 `SEDModel`, physical_model.py:562
`BandfluxModel`, multi_object_model.py:208 `AdditiveMultiObjectModel`, multi_object_model.py:409
`RandomMultiObjectModel` (`names` is `object_names`). -/
inductive PhysModel (V W R K : Type)
  | sed (m : SEDModel V W R K)
  | band (m : BandModel V R K)
  | additive (nodeString : Name) (setters : Dict Name V) (objects : List (PhysModel V W R K)) (weights : List K)
      (obsEffects : List (Effect V R K))
  | random (nodeString : Name) (setters : Dict Name V) (objects : List (PhysModel V W R K)) (names : List Name)
      (obsEffects : List (Effect V R K))

namespace PhysModel
variable {V W R : Type}

/-- multi_object_model.py:57: `isinstance(object, BandfluxModel)`. -/
def isBand : PhysModel V W R K → Bool
  | band _ => true
  | _ => false

/-- The attribute `node_string`. -/
def node : PhysModel V W R K → Name
  | sed m => m.nodeString
  | band m => m.nodeString
  | additive n _ _ _ _ => n
  | random n _ _ _ _ => n

/-- multi_object_model.py:240-253: an additive model; weights default to 1 each. -/
def mkAdditive (nodeString : Name) (setters : Dict Name V) (objects : List (PhysModel V W R K)) (weights : Option (List K)) :
    Except Err (PhysModel V W R K) :=
  match weights with
  | none => .ok (.additive nodeString setters objects (objects.map fun _ => 1) [])
  | some ws => if ws.length ≠ objects.length then .error .valueError
    else .ok (.additive nodeString setters objects ws [])

/-- multi_object_model.py:431-444: a random model; an empty or missing list of names means the objects'
node strings. (The sampler of `selected_object` is modelled in `Model/Samplers2.lean`.) -/
def mkRandom (nodeString : Name) (setters : Dict Name V) (objects : List (PhysModel V W R K)) (names : Option (List Name)) :
    PhysModel V W R K :=
  let given := names.getD []
  .random nodeString setters objects (if given = [] then objects.map node else given) []

/-- multi_object_model.py:335-343: `total += weight * flux`, ValueError on different shapes. -/
def addScaled (w : K) (acc a : Mat K) : Except Err (Mat K) :=
  if acc.map List.length = a.map List.length then
    .ok (List.zipWith (List.zipWith fun x y => x + w * y) acc a)
  else .error .valueError

/-- multi_object_model.py:392: `total += weight * bandflux`. -/
def addScaledBand (w : K) (acc a : List K) : Except Err (List K) :=
  if acc.length = a.length then .ok (List.zipWith (fun x y => x + w * y) acc a) else .error .valueError

/-- base_models.py:321-325 `get_param(state, "selected_object")`: None (no such object) when absent. -/
def selected (st : SState K) (node : Name) : Option Name :=
  match st.get? node with
  | none => none
  | some p => match p.get? "selected_object".toList with
    | some (.str s) => some s
    | _ => none

mutual
/-- multi_object_model.py:299-356 and 482-535, physical_model.py:400-463: `_evaluate_single`. (A bandflux
model has no such method.) -/
def evaluateSingle (noKw : W) (times waves : List K) (st : SState K) (kw : W) :
    PhysModel V W R K → R → Except Err (Mat K × R)
  | sed m, r => m.evaluateSingle noKw times waves st r kw
  | band _, _ => .error .attributeError
  | additive node _ objects weights obs, r =>
    if objects.any isBand then .error .typeError
    else match sumSed noKw times waves st kw objects weights (times.map fun _ => waves.map fun _ => 0) r with
      | .error e => .error e
      | .ok (a, r) => match localParams st node with
        | .error e => .error e
        | .ok p => applyEffects p times waves obs r a
  | random node _ objects names obs, r =>
    if objects.any isBand then .error .typeError
    else match selected st node with
      | none => .error .keyError
      | some name => match evaluateNamed noKw times waves st kw name objects names r with
        | none => .error .keyError
        | some (.error e) => .error e
        | some (.ok (a, r)) => match localParams st node with
          | .error e => .error e
          | .ok p => applyEffects p times waves obs r a

/-- multi_object_model.py:336-343: the loop over `zip(objects, weights)`. -/
def sumSed (noKw : W) (times waves : List K) (st : SState K) (kw : W) :
    List (PhysModel V W R K) → List K → Mat K → R → Except Err (Mat K × R)
  | o :: os, w :: ws, acc, r => match evaluateSingle noKw times waves st kw o r with
    | .error e => .error e
    | .ok (a, r) => match addScaled w acc a with
      | .error e => .error e
      | .ok acc => sumSed noKw times waves st kw os ws acc r
  | [], _, acc, r => .ok (acc, r)
  | _ :: _, [], acc, r => .ok (acc, r)

/-- multi_object_model.py:442, 515-522: `object_map[name]._evaluate_single(...)`; the dictionary built from
`zip(names, objects)` keeps the last object of each name; `none` when the name is not a key. -/
def evaluateNamed (noKw : W) (times waves : List K) (st : SState K) (kw : W) (name : Name) :
    List (PhysModel V W R K) → List Name → R → Option (Except Err (Mat K × R))
  | o :: os, n :: ns, r => match evaluateNamed noKw times waves st kw name os ns r with
    | some res => some res
    | none => if n = name then some (evaluateSingle noKw times waves st kw o r) else none
  | [], _, _ => none
  | _ :: _, [], _ => none
end

mutual
/-- multi_object_model.py:358-406 and 537-579, physical_model.py:526-559 and 638-678:
`_evaluate_bandfluxes_single`. -/
def bandfluxesSingle (noKw : W) (g : PassbandGroup K) (times : List K) (filters : List Name) (st : SState K) :
    PhysModel V W R K → R → Except Err (List K × R)
  | sed m, r => m.evaluateBandfluxesSingle noKw g times filters st r
  | band m, r => m.evaluateBandfluxesSingle times filters st r
  | additive node _ objects weights obs, r =>
    match sumBand noKw g times filters st objects weights (times.map fun _ => 0) r with
    | .error e => .error e
    | .ok (a, r) => match localParams st node with
      | .error e => .error e
      | .ok p => applyBandEffects p times filters obs r a
  | random node _ objects names obs, r =>
    match selected st node with
    | none => .error .keyError
    | some name => match bandNamed noKw g times filters st name objects names r with
      | none => .error .keyError
      | some (.error e) => .error e
      | some (.ok (a, r)) => match localParams st node with
        | .error e => .error e
        | .ok p => applyBandEffects p times filters obs r a

/-- multi_object_model.py:384-392 (`self.weights[idx]` raises IndexError when missing). -/
def sumBand (noKw : W) (g : PassbandGroup K) (times : List K) (filters : List Name) (st : SState K) :
    List (PhysModel V W R K) → List K → List K → R → Except Err (List K × R)
  | o :: os, w :: ws, acc, r => match bandfluxesSingle noKw g times filters st o r with
    | .error e => .error e
    | .ok (a, r) => match addScaledBand w acc a with
      | .error e => .error e
      | .ok acc => sumBand noKw g times filters st os ws acc r
  | [], _, acc, r => .ok (acc, r)
  | o :: _, [], _, r => match bandfluxesSingle noKw g times filters st o r with
    | .error e => .error e
    | .ok _ => .error .indexError

/-- multi_object_model.py:442, 560-567. -/
def bandNamed (noKw : W) (g : PassbandGroup K) (times : List K) (filters : List Name) (st : SState K) (name : Name) :
    List (PhysModel V W R K) → List Name → R → Option (Except Err (List K × R))
  | o :: os, n :: ns, r => match bandNamed noKw g times filters st name os ns r with
    | some res => some res
    | none => if n = name then some (bandfluxesSingle noKw g times filters st o r) else none
  | [], _, _ => none
  | _ :: _, [], _ => none
end

mutual
/-- multi_object_model.py:95-113 and physical_model.py:277-304, 595-615: `add_effect(effect)`. -/
def addEffect (e : Effect V R K) : PhysModel V W R K → PhysModel V W R K
  | sed m => .sed (m.addEffect e)
  | band m => .band (m.addEffect e)
  | additive n s objects ws obs =>
    if e.restFrame then .additive n s (addEffectAll e objects) ws obs
    else .additive n (addMissing s e.parameters) objects ws (obs ++ [e])
  | random n s objects names obs =>
    if e.restFrame then .random n s (addEffectAll e objects) names obs
    else .random n (addMissing s e.parameters) objects names (obs ++ [e])

/-- multi_object_model.py:105-106. -/
def addEffectAll (e : Effect V R K) : List (PhysModel V W R K) → List (PhysModel V W R K)
  | [] => []
  | o :: os => addEffect e o :: addEffectAll e os
end

/-- multi_object_model.py:83-93: the loop of `set_apply_redshift`: only bandflux objects are asked, and those
raise NotImplementedError (physical_model.py:585-593). -/
def setRedshiftAll (flag : Bool) : List (PhysModel V W R K) → Except Err (List (PhysModel V W R K))
  | [] => .ok []
  | o :: os =>
    if o.isBand then .error .notImplemented
    else match setRedshiftAll flag os with
      | .error e => .error e
      | .ok os' => .ok (o :: os')

/-- physical_model.py:265-275, 585-593 and multi_object_model.py:83-93: `set_apply_redshift`. -/
def setApplyRedshift (flag : Bool) : PhysModel V W R K → Except Err (PhysModel V W R K)
  | sed m => .ok (.sed { m with applyRedshift := flag })
  | band _ => .error .notImplemented
  | additive n s objects ws obs => match setRedshiftAll flag objects with
    | .error e => .error e
    | .ok os => .ok (.additive n s os ws obs)
  | random n s objects names obs => match setRedshiftAll flag objects with
    | .error e => .error e
    | .ok os => .ok (.random n s os names obs)

/-- `objects[idx]` for a list of objects and the value of `selected_object`: a list indexed by a string or by
None raises TypeError. -/
def indexBy (_objects : List (PhysModel V W R K)) : Option Name → Except Err (PhysModel V W R K)
  | some _ => .error .typeError
  | none => .error .typeError

/-- multi_object_model.py:446-480: `minwave`/`maxwave` of a random model, with string names; `f` is the
objects' own method. -/
def randomWave (f : PhysModel V W R K → SState K → Option K) (objects : List (PhysModel V W R K)) (node : Name)
    (st : SState K) : Except Err (Option K) :=
  match indexBy objects (selected st node) with
  | .error e => .error e
  | .ok o => .ok (f o st)

end PhysModel
end LCL
