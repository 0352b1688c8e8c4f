import Verif.Model.PhysicalInit
import Verif.Model.RandomNodes
import Verif.Model.Salt2
import Verif.Model.SnCoord

/-!
# Model of the source of the supernova example

`src/lightcurvelynx/example_runs/simulate_snia.py` lines 25-85 `construct_snia_source`: the graph of nodes it builds with the constructors modelled in
`Model/NodeApi.lean` and `Model/PhysicalInit.lean`, over the random nodes of `Model/RandomNodes.lean`. Nodes are numbered in the order in which the code
creates them.

Simplifications: decimal constants are exact; a parameter that is not a number counts as 0 in a computation (none occurs in this graph); the random numbers behind
the distributions are those of an abstract stream.
-/

namespace LCL.SniaSource
open LCL LCL.PhysicalInit LCL.RandomNodes

/-- The generators: every random node has its own (np_random.py:73-75, scipy_random.py:62-64); `info` is the one passed to the sampling call, if any. -/
structure Gens (ρ : Type) where
  own : Nat → ρ
  info : Option ρ

/-- The generators after node `k` has drawn. -/
def Gens.put {ρ : Type} (w : Gens ρ) (k : Nat) (own : ρ) (info : Option ρ) : Gens ρ :=
  ⟨fun j => if j = k then own else w.own j, info⟩

/-- What the library functions make of one random number: numpy's standard uniform and standard normal, and scipy's inverse distribution functions of the redshift
distribution and of the stretch distributions of heavy and light hosts; and the cosmology's luminosity distance in Mpc. -/
structure Laws (U : Type) where
  unit : U → ℝ
  normal : U → ℝ
  zinv : U → ℝ
  heavy : U → ℝ
  light : U → ℝ
  lumDist : ℝ → ℝ

/-- base_models.py:583-588 and `GraphState`: the value of a parameter for sample `i`. -/
def entry (v : Val ℝ) (i : Nat) : ℝ :=
  match v with
  | .scalar x => x
  | .arr rows => match rows[i]? with
    | some (.scalar x) => x
    | _ => 0
  | .none => 0

/-- base_models.py:861-883: the argument `name` of a function for sample `i`. -/
def argAt (args : Dict Name (Val ℝ)) (name : Name) (i : Nat) : ℝ :=
  match args.get? name with
  | some v => entry v i
  | none => 0

/-- A number for one sample, an array otherwise. -/
def pack (n : Nat) (f : Nat → ℝ) : Val ℝ :=
  if n = 1 then .scalar (f 0) else .arr ((List.range n).map fun i => .scalar (f i))

/-- np_random.py:94-135: the `compute` of the `NumpyRandomFunc` number `k`. -/
def npBody {ρ U : Type} (G : RStream ρ U) (dist : List (Name × ℝ) → U → ℝ) (k : Nat) (names : List Name) : Body ℝ (Gens ρ) := fun w n args =>
  match npCompute G dist [] (names.map fun p => (p, argAt args p)) n (w.own k) w.info with
  | .error e => (w, .error e)
  | .ok (own, info, a) => (w.put k own info, .ok (pack n fun i => a.get (if n = 1 then [] else [i])))

/-- `Generator.uniform(low, high)`. -/
def uniformLaw {U : Type} (L : Laws U) : List (Name × ℝ) → U → ℝ
  | [(_, low), (_, high)], u => low + (high - low) * L.unit u
  | _, _ => 0

/-- `Generator.normal(loc, scale)`. -/
def normalLaw {U : Type} (L : Laws U) : List (Name × ℝ) → U → ℝ
  | [(_, loc), (_, scale)], u => loc + scale * L.normal u
  | _, _ => 0

/-- scipy_random.py:127-132 and 146-148: the `compute` of a `SamplePDF` node, which samples all values at once. -/
def pdfBody {ρ U : Type} (G : RStream ρ U) (inv : U → ℝ) (k : Nat) : Body ℝ (Gens ρ) := fun w n _ =>
  let g := w.info.getD (w.own k)
  let w' := match w.info with
    | some _ => w.put k (w.own k) (some (G.adv g n))
    | none => w.put k (G.adv g n) none
  (w', .ok (pack n fun i => inv (G.val g i)))

/-- The stored form of a result. -/
def outVal : Out → Val ℝ
  | .one x => .scalar x
  | .many l => .arr (l.map .scalar)

/-- snia_utils.py:208-247: the `compute` of `HostmassX1Func`. -/
noncomputable def stretchBody {ρ U : Type} (G : RStream ρ U) (L : Laws U) (k : Nat) : Body ℝ (Gens ρ) := fun w n args =>
  let r := hostmassCompute G L.heavy L.light (argAt args "hostmass".toList) n (w.own k) w.info
  (w.put k r.1 r.2.1, .ok (outVal r.2.2))

/-- snia_utils.py:313-326: the function of `DistModFromRedshift`, for arrays sample by sample. -/
noncomputable def distmodBody {ρ : Type} (lumDist : ℝ → ℝ) : Body ℝ (Gens ρ) := fun w n args =>
  (w, .ok (pack n fun i => SnCoord.distmod lumDist (argAt args "redshift".toList i)))

/-- snia_utils.py:151-178: the function of `X0FromDistMod`, for arrays sample by sample. -/
noncomputable def x0Body {ρ : Type} : Body ℝ (Gens ρ) := fun w n args =>
  (w, .ok (pack n fun i => Salt2.x0FromDistmod (argAt args "distmod".toList i) (argAt args "x1".toList i) (argAt args "c".toList i)
    (argAt args "alpha".toList i) (argAt args "beta".toList i) (argAt args "m_abs".toList i)))

/-- `NumpyRandomFunc("uniform", low=…, high=…)`. -/
def uniformOp {ρ U : Type} (G : RStream ρ U) (L : Laws U) (k : Nat) (low high : ℝ) : ApiOp ℝ (Gens ρ) :=
  .newFunction "NumpyRandomFunc".toList none (some "uniform".toList) (some (npBody G (uniformLaw L) k ["low".toList, "high".toList]))
    (funcAttrs ++ ["func_name", "sample_size", "_rng", "set_seed"].map String.toList) []
    [("low".toList, .const (.scalar low)), ("high".toList, .const (.scalar high))]

/-- `NumpyRandomFunc("normal", loc=…, scale=…)`. -/
def normalOp {ρ U : Type} (G : RStream ρ U) (L : Laws U) (k : Nat) (loc : PyVal ℝ (Gens ρ)) (scale : ℝ) : ApiOp ℝ (Gens ρ) :=
  .newFunction "NumpyRandomFunc".toList none (some "normal".toList) (some (npBody G (normalLaw L) k ["loc".toList, "scale".toList]))
    (funcAttrs ++ ["func_name", "sample_size", "_rng", "set_seed"].map String.toList) []
    [("loc".toList, loc), ("scale".toList, .const (.scalar scale))]

/-- The attributes of physical models before their parameters are added (base_models.py:169-210, physical_model.py:61-95, 249-263 and the methods of the classes). -/
def physAttrs : List Name :=
  ["setters", "node_label", "node_pos", "node_string", "set_graph_positions", "list_params", "has_valid_param", "get_param", "get_local_params", "set_parameter",
   "set_allow_gradient", "add_parameter", "compute", "sample_parameters", "build_dependency_graph", "build_pytree", "apply_redshift", "set_apply_redshift",
   "rest_frame_effects", "obs_frame_effects", "add_effect", "list_effects", "minwave", "maxwave", "compute_sed", "evaluate_sed", "evaluate_bandfluxes",
   "compute_sed_with_extrapolation", "wave_extrapolation", "mask_by_time", "_update_node_string", "_sample_helper", "_evaluate_single", "_evaluate_bandfluxes_single"].map String.toList

/-- simulate_snia.py:51-57: the arguments of the host. -/
def hostArgs {ρ : Type} : Args ℝ (Gens ρ) :=
  { label := some "host".toList, ra := .node 0, dec := .node 1, redshift := .node 3, t0 := .const .none, distance := .const .none, cosmology := none, extra := [] }

/-- simulate_snia.py:50-57: the nodes behind the host. -/
noncomputable def hostNodes {ρ U : Type} (G : RStream ρ U) (L : Laws U) : List (ApiOp ℝ (Gens ρ)) :=
  [uniformOp G L 0 (-1 / 2) (1 / 2), uniformOp G L 1 (-1 / 2) (1 / 2), uniformOp G L 2 7 12,
   .newFunction "SamplePDF".toList none (some "_rvs".toList) (some (pdfBody G L.zinv 3)) funcAttrs [] []]

/-- simulate_snia.py:59-71 and 76-81: the nodes behind the source; node 4 is the host. -/
noncomputable def sourceNodes {ρ U : Type} (G : RStream ρ U) (L : Laws U) (tmin tmax : ℝ) : List (ApiOp ℝ (Gens ρ)) :=
  [.newFunction "DistModFromRedshift".toList none (some "_distmod_from_redshift".toList) (some (distmodBody L.lumDist)) funcAttrs []
     [("redshift".toList, .method 4 "redshift".toList)],
   .newFunction "HostmassX1Func".toList none (some "_rvs".toList) (some (stretchBody G L 6)) funcAttrs [] [("hostmass".toList, .method 4 "hostmass".toList)],
   normalOp G L 7 (.const (.scalar 0)) (2 / 100),
   normalOp G L 8 (.const (.scalar (-193 / 10))) (1 / 10),
   .newFunction "X0FromDistMod".toList (some "x0_func".toList) (some "_x0_from_distmod".toList) (some x0Body) funcAttrs []
     [("distmod".toList, .node 5), ("x1".toList, .node 6), ("c".toList, .node 7), ("alpha".toList, .const (.scalar (14 / 100))),
      ("beta".toList, .const (.scalar (31 / 10))), ("m_abs".toList, .node 8)],
   uniformOp G L 10 tmin tmax,
   normalOp G L 11 (.method 4 "ra".toList) (1 / 100),
   normalOp G L 12 (.method 4 "dec".toList) (1 / 100)]

/-- simulate_snia.py:74-84: the arguments of the source that `BasePhysicalModel` names; `x0`, `x1` and `c` are the others. -/
def sourceArgs {ρ : Type} : Args ℝ (Gens ρ) :=
  { label := some "source".toList, ra := .node 11, dec := .node 12, redshift := .method 4 "redshift".toList, t0 := .node 10, distance := .const .none, cosmology := none,
    extra := [("x0".toList, .node 9), ("x1".toList, .node 6), ("c".toList, .node 7)] }

/-- sncomso_models.py:89-91: the parameters of the sncosmo model that are not yet parameters of the node. -/
def extraOps {ρ : Type} : List (ApiOp ℝ (Gens ρ)) :=
  [.addParameter 13 "x0".toList (.node 9) none [], .addParameter 13 "x1".toList (.node 6) none [], .addParameter 13 "c".toList (.node 7) none []]

/-- simulate_snia.py:25-85 `construct_snia_source`: the graph; the source is node 13. `tmin` and `tmax` are the first and last observation times (lines 43-44). -/
noncomputable def construct {ρ U : Type} (G : RStream ρ U) (L : Laws U) (tmin tmax : ℝ) : Except Err (Heap ℝ (Gens ρ)) :=
  match runOps [] (hostNodes G L) with
  | .error e => .error e
  | .ok H => match sniaHostInit H physAttrs hostArgs (.node 2) with
    | .error e => .error e
    | .ok H => match runOps H (sourceNodes G L tmin tmax) with
      | .error e => .error e
      | .ok H => match physicalInit H "SncosmoWrapperModel".toList physAttrs sourceArgs with
        | .error e => .error e
        | .ok H => runOps H extraOps

end LCL.SniaSource
