import Verif.Model.NodeApi

/-!
# Model of the constructor of physical models

`BasePhysicalModel.__init__` (physical_model.py:61-95) and `RedshiftDistFunc` (redshift.py:61-112) as calls of the graph-building API
(`Model/NodeApi.lean`). The keyword arguments that `BasePhysicalModel.__init__` does not name arrive in `**kwargs`; among them is
`cosmology`, and all of them are passed on to `RedshiftDistFunc` (line 86). The random generator (lines 93-95) is not modelled.
-/

namespace LCL.PhysicalInit
open LCL
variable {α σ : Type}

/-- A constructor: calls of the API, stopping at the first one that raises. -/
def runOps (H : Heap α σ) : List (ApiOp α σ) → Except Err (Heap α σ)
  | [] => .ok H
  | op :: ops => match H.apply op with
    | (H', none) => runOps H' ops
    | (_, some e) => .error e

/-- The names of the parameters. -/
def raName : Name := "ra".toList
def decName : Name := "dec".toList
def redshiftName : Name := "redshift".toList
def t0Name : Name := "t0".toList
def distanceName : Name := "distance".toList

/-- redshift.py:61-79 `redshift_to_distance` on the values of a parameter: a number or an array of numbers. `D` is the cosmology's luminosity
distance. Anything else (`None` times a unit) raises TypeError. -/
def distOf (D : α → α) : Val α → Except Err (Val α)
  | .scalar z => .ok (.scalar (D z))
  | .arr rows => if rows.all (fun v => match v with | .scalar _ => true | _ => false) then
      .ok (.arr (rows.map fun v => match v with | .scalar z => .scalar (D z) | w => w))
    else .error .typeError
  | .none => .error .typeError

/-- redshift.py:100-112: `partial(redshift_to_distance, cosmology=cosmology)` called with the node's arguments as keywords: an argument other than
`redshift` raises TypeError. -/
def distBody (D : α → α) : Body α σ := fun w _ args =>
  (w, if args.keys.all (fun k => k == redshiftName) then
      match args.get? redshiftName with
      | some v => distOf D v
      | none => .error .typeError
    else .error .typeError)

/-- The arguments of the constructor. -/
structure Args (α σ : Type) where
  label : Option Name
  ra : PyVal α σ
  dec : PyVal α σ
  redshift : PyVal α σ
  t0 : PyVal α σ
  distance : PyVal α σ
  cosmology : Option (α → α)
  /-- the other keyword arguments in `**kwargs` -/
  extra : List (Name × PyVal α σ)

/-- Python's `is not None`. -/
def given : PyVal α σ → Bool
  | .const .none => false
  | _ => true

/-- physical_model.py:73-79: the node and its first parameters. -/
def headOps (cls : Name) (attrs : List Name) (id : NodeId) (a : Args α σ) : List (ApiOp α σ) :=
  [.newNode cls a.label attrs,
   .addParameter id raName a.ra (some false) [],
   .addParameter id decName a.dec (some false) [],
   .addParameter id redshiftName a.redshift (some false) [],
   .addParameter id t0Name a.t0 none []]

/-- physical_model.py:81-89: the distance; `fid` is the identity of the new function node. -/
def tailOps (id fid : NodeId) (a : Args α σ) : List (ApiOp α σ) :=
  if given a.distance then [.addParameter id distanceName a.distance (some false) []]
  else match given a.redshift, a.cosmology with
    | true, some D =>
      [.newFunction "RedshiftDistFunc".toList none (some "redshift_to_distance".toList) (some (distBody D)) funcAttrs []
          ((redshiftName, .method id redshiftName) :: a.extra),
       .addParameter id distanceName (.node fid) (some false) []]
    | _, _ => [.addParameter id distanceName (.const .none) (some false) []]

/-- physical_model.py:61-89 `BasePhysicalModel.__init__`, for a class with the given attributes. -/
def physicalInit (H : Heap α σ) (cls : Name) (attrs : List Name) (a : Args α σ) : Except Err (Heap α σ) :=
  match runOps H (headOps cls attrs H.length a) with
  | .error e => .error e
  | .ok H1 => runOps H1 (tailOps H.length H1.length a)

/-- snia_host.py:4-18 `SNIaHost(**kwargs)`: the host mass is one of the keyword arguments, so it is among those passed on, and is added as a
parameter afterwards. -/
def sniaHostInit (H : Heap α σ) (attrs : List Name) (a : Args α σ) (hostmass : PyVal α σ) : Except Err (Heap α σ) :=
  match physicalInit H "SNIaHost".toList attrs { a with extra := ("hostmass".toList, hostmass) :: a.extra } with
  | .error e => .error e
  | .ok H1 => runOps H1 [.addParameter H.length "hostmass".toList (.const .none) none [("hostmass".toList, hostmass)]]

end LCL.PhysicalInit
