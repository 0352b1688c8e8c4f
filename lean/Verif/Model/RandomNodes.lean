import Verif.Model.Units
import Mathlib.Analysis.SpecialFunctions.Exp

/-!
# Model of the random function nodes

`math_nodes/np_random.py`, `math_nodes/scipy_random.py`, `math_nodes/bilby_priors.py`, `astro_utils/pzflow_node.py` and
`HostmassX1Func` of `astro_utils/snia_utils.py`. A generator state `ρ` is a stream: `val r k` is the number behind its
`k`-th next draw, `adv r k` the state after `k` draws. How node parameters get their values is modelled in `Model/Nodes.lean`;
here they are functions from the sample index to the value. Shapes are lists of axis lengths, last axis first (as in
`Model/Units.lean`).
-/

namespace LCL.RandomNodes
open LCL

/-- A random stream with its states. -/
structure RStream (ρ U : Type) where
  val : ρ → Nat → U
  adv : ρ → Nat → ρ

/-- An n-dimensional array of results. -/
structure Arr where
  shape : List Nat
  get : List Nat → ℝ

/-- The number of entries. -/
def size (shape : List Nat) : Nat := shape.foldr (· * ·) 1

/-- The position of an index in C order (the last axis runs fastest). -/
def flat : List Nat → List Nat → Nat
  | c :: cs, i :: is => i + c * flat cs is
  | _, _ => 0

/-- `np.broadcast_shapes` of several arguments. -/
def bshapes : List (List Nat) → Option (List Nat)
  | [] => some []
  | s :: l => match bshapes l with
    | none => none
    | some t => NArr.bshape s t

/-- The numpy contract of `rng.f(**args, size=size)`: arguments are broadcast to the size (or to each other without a size),
ValueError if that is impossible; every entry of the result is computed from its own draw, in C order, and from the
arguments at the broadcast index. `dist` is the transformation of one draw. -/
def npCall {ρ U : Type} (G : RStream ρ U) (dist : List (Name × ℝ) → U → ℝ) (args : List (Name × NArr)) (sz : Option (List Nat)) (r : ρ) :
    Except Err (ρ × Arr) :=
  match bshapes (args.map fun a => a.2.shape) with
  | none => .error .valueError
  | some b =>
    let result (s : List Nat) : ρ × Arr :=
      (G.adv r (size s), ⟨s, fun i => dist (args.map fun a => (a.1, a.2.get (NArr.bidx a.2.shape i))) (G.val r (flat s i))⟩)
    match sz with
    | none => .ok (result b)
    | some s => if NArr.bshape s b = some s then .ok (result s) else .error .valueError

/-- The `size` argument of the constructor. -/
inductive SizeArg
  | none
  | int (k : Int)
  | tuple (l : List Int)

/-- np_random.py:51-81 `__init__`: the sample size (first axis first); `known` says whether numpy's generators have the function. -/
def npInit (func : Name) (known : Name → Bool) (sz : SizeArg) : Except Err (List Nat) :=
  if func = "choice".toList then .error .valueError
  else
    let dims : Except Err (List Nat) := match sz with
      | .none => .ok []
      | .int k => if k = 1 then .ok [] else if k ≤ 0 then .error .valueError else .ok [k.toNat]
      | .tuple l => if l.any (fun k => decide (k ≤ 0)) then .error .valueError else .ok (l.map Int.toNat)
    match dims with
    | .error e => .error e
    | .ok d => if known func then .ok d else .error .valueError

/-- base_models.py:862-883 and the storage of `GraphState`: the value of a scalar parameter in a state with `n` samples is the
number itself for one sample and an array of `n` numbers otherwise (constants are expanded). -/
def argOf (n : Nat) (v : Nat → ℝ) : NArr := if n = 1 then ⟨[], fun _ => v 0⟩ else ⟨[n], fun i => v (i.headD 0)⟩

/-- np_random.py:126-130: the size handed to numpy. -/
def sizeParam (n : Nat) (sampleSize : List Nat) : Option (List Nat) :=
  if sampleSize = [] ∧ n = 1 then none else some (sampleSize.reverse ++ [n])

/-- np_random.py:94-135 `compute`. The result, the node's own generator and the caller's generator afterwards. Storing the result
is modelled in `Model/NodeMore.lean`. -/
def npCompute {ρ U : Type} (G : RStream ρ U) (dist : List (Name × ℝ) → U → ℝ) (sampleSize : List Nat) (params : List (Name × (Nat → ℝ)))
    (n : Nat) (own : ρ) (info : Option ρ) : Except Err (ρ × Option ρ × Arr) :=
  let args := params.map fun p => (p.1, argOf n p.2)
  match info with
  | some g => match npCall G dist args (sizeParam n sampleSize) g with
    | .error e => .error e
    | .ok (g', a) => .ok (own, some g', a)
  | none => match npCall G dist args (sizeParam n sampleSize) own with
    | .error e => .error e
    | .ok (own', a) => .ok (own', none, a)

/-! ## Sampling with scipy -/

/-- The values of one node output: a number for one sample, an array otherwise. -/
inductive Out
  | one (x : ℝ)
  | many (l : List ℝ)

/-- scipy_random.py:104-148 `NumericalInversePolynomialFunc.compute` for a distribution class: `inv args u` is the value that
the inverse distribution function of the distribution with these arguments gives for the draw `u`. The first distribution is sampled
once more than needed, because `np.vectorize` calls the function to find the type of its results. -/
def invPolyCompute {ρ U : Type} (G : RStream ρ U) (inv : List (Name × ℝ) → U → ℝ) (params : List (Name × (Nat → ℝ))) (n : Nat) (own : ρ)
    (info : Option ρ) : ρ × Option ρ × Out :=
  let g := info.getD own
  let args (i : Nat) := params.map fun p => (p.1, p.2 i)
  let out : Out := if n = 1 then .one (inv (args 0) (G.val g 0))
    else .many ((List.range n).map fun i => inv (args i) (G.val g (i + 1)))
  let g' := G.adv g (if n = 1 then 1 else n + 1)
  match info with
  | some _ => (own, some g', out)
  | none => (g', none, out)

/-- snia_utils.py:181-247 `HostmassX1Func.compute`; `ge` and `lt` are the inverse distribution functions for heavy and light hosts. -/
noncomputable def hostmassCompute {ρ U : Type} (G : RStream ρ U) (ge lt : U → ℝ) (mass : Nat → ℝ) (n : Nat) (own : ρ) (info : Option ρ) :
    ρ × Option ρ × Out :=
  open Classical in
  let g := info.getD own
  let heavy (i : Nat) : Bool := decide (10 ≤ mass i)
  -- the rank of sample i among the samples of its kind, and the draws used for the heavy ones before the light ones
  let rank (i : Nat) : Nat := ((List.range i).filter fun j => heavy j == heavy i).length
  let nHeavy := ((List.range n).filter fun j => heavy j).length
  let out : Out := if n = 1 then .one (if heavy 0 then ge (G.val g 0) else lt (G.val g 0))
    else .many ((List.range n).map fun i => if heavy i then ge (G.val g (rank i)) else lt (G.val g (nHeavy + rank i)))
  let g' := G.adv g n
  match info with
  | some _ => (own, some g', out)
  | none => (g', none, out)

/-- snia_utils.py:109-130 `HostmassX1Distr._p`. -/
noncomputable def hostP (mass x1 : ℝ) : ℝ :=
  open Classical in
  if mass < 10 then (if -5 < x1 ∧ x1 < 5 then Real.exp (-(min 0 x1) ^ 2) else 0) else 1

/-- snia_utils.py:132-148 `HostmassX1Distr.pdf`; `normal` is the standard normal density. -/
noncomputable def hostPdf (normal : ℝ → ℝ) (mass x1 : ℝ) : ℝ := hostP mass x1 * normal x1

/-! ## Bilby and pzflow -/

/-- bilby_priors.py:88-125 `BilbyPriorNode.compute`: the values come from bilby's own global generator; `rng_info` is not used.
`prior` transforms a draw for a parameter. The parameters are drawn one after the other. -/
def bilbyCompute {ρ U : Type} (G : RStream ρ U) (prior : List (Name × (U → ℝ))) (n : Nat) (glob : ρ) (info : Option ρ) :
    ρ × Option ρ × List (Name × Out) :=
  (G.adv glob (prior.length * n), info,
    prior.mapIdx fun k p => (p.1, if n = 1 then .one (p.2 (G.val glob k)) else .many ((List.range n).map fun i => p.2 (G.val glob (k * n + i)))))

/-- A pzflow `Flow`: with a seed, row `k` of a sample (given row `k` of the conditions). -/
structure Flow (Row : Type) where
  columns : List Name
  conditional : List Name
  row : (seed : Nat) → (k : Nat) → (cond : Row) → Row
  read : Row → Name → ℝ

/-- pzflow_node.py:32-49 `__init__`: missing inputs of a conditional flow raise. -/
def pzInit {Row : Type} (f : Flow Row) (given : List Name) : Except Err Unit :=
  if f.conditional.any (fun c => !given.contains c) then .error .valueError else .ok ()

/-- pzflow_node.py:75-125 `compute`. `seed` is the seed drawn from `rng_info` (or, without it, the one the flow draws from numpy's
global generator); `cond i` the inputs of sample `i`. `pd.DataFrame` of a dictionary of numbers (one sample) raises ValueError. -/
def pzCompute {Row : Type} (f : Flow Row) (none : Row) (seed : Nat) (cond : Nat → Row) (n : Nat) : Except Err (List (Name × Out)) :=
  let finish (rows : List Row) : List (Name × Out) := f.columns.map fun c =>
    (c, if n = 1 then .one ((rows.map fun r => f.read r c).headD 0) else .many (rows.map fun r => f.read r c))
  if f.conditional ≠ [] then
    if n = 1 then .error .valueError
    else .ok (finish ((List.range n).map fun i => f.row seed i (cond i)))
  else .ok (finish ((List.range n).map fun i => f.row seed i none))

end LCL.RandomNodes
