import Verif.Model.RandomNodes

/-!
# Model of a session with several random nodes

A session holds random nodes, each with its own generator, and the one generator that the package bilby keeps for the whole process. Events are what a user does:
create a node (with or without a seed), set a seed, sample a node (with or without an explicit generator). How a node samples is modelled in
`Model/RandomNodes.lean`; here its calls are put in sequence.
-/

namespace LCL.SeedHistory
open LCL LCL.RandomNodes

/-- numpy's (and bilby's) generators: a stream, and the state that a seed gives. -/
structure Gen (ρ U : Type) extends RStream ρ U where
  seeded : Nat → ρ

/-- What a call gives. -/
inductive Result
  | arr (a : Arr)
  | out (o : Out)
  | outs (l : List (Name × Out))
  | err (e : Err)

/-- The kinds of random nodes, with what their constructors fix. -/
inductive Kind (U : Type)
  | numpy (dist : List (Name × ℝ) → U → ℝ) (size : List Nat)
  | invClass (inv : List (Name × ℝ) → U → ℝ)
  | invObject (inv : U → ℝ)
  | hostmass (ge lt : U → ℝ) (mass : Name)
  | draws (used : Nat → (Nat → U) → Nat) (f : Nat → (Nat → U) → Result)
  | tabulated (inv : U → Except Err ℝ)
  | bilby (prior : List (Name × (U → ℝ)))

/-- A node: its kind and its own generator. -/
structure Node (ρ U : Type) where
  kind : Kind U
  own : ρ

/-- The session. -/
structure World (ρ U : Type) where
  nodes : Dict Nat (Node ρ U)
  bilby : ρ

variable {ρ U : Type}

/-- scipy_random.py:129-132: a distribution object; all samples in one batch. -/
def invObjectCompute (G : RStream ρ U) (inv : U → ℝ) (n : Nat) (own : ρ) (info : Option ρ) : ρ × Out :=
  let g := info.getD own
  let out : Out := if n = 1 then .one (inv (G.val g 0)) else .many ((List.range n).map fun i => inv (G.val g i))
  match info with
  | some _ => (own, out)
  | none => (G.adv g n, out)

/-- given_sampler.py:53-59 (`BinarySampler`), 182-188 (`GivenValueSampler`), 303-304 (`TableSampler`), ra_dec_sampler.py:53-57, 132-142, 234-250 and 346-357: nodes that take
the explicit generator or else their own, draw as many numbers as `used` says (it may depend on the numbers) and compute the result from them (what they compute is modelled in `Model/Samplers*.lean`). -/
def drawsCompute (G : RStream ρ U) (used : Nat → (Nat → U) → Nat) (f : Nat → (Nat → U) → Result) (n : Nat) (own : ρ) (info : Option ρ) : ρ × Result :=
  match info with
  | some g => (own, f n (G.val g))
  | none => (G.adv own (used n (G.val own)), f n (G.val own))

/-- distribution_sampler.py:70-100 `compute`: always the node's own generator; a draw outside of the knots raises after drawing. -/
def tabulatedCompute (G : RStream ρ U) (inv : U → Except Err ℝ) (n : Nat) (own : ρ) : ρ × Result :=
  (G.adv own n, match (List.range n).mapM fun i => inv (G.val own i) with
    | .error e => .err e
    | .ok l => .out (if n = 1 then .one (l.headD 0) else .many l))

/-- The `compute` of each kind: np_random.py:94-135, scipy_random.py:104-148, snia_utils.py:181-247, distribution_sampler.py:70-100, bilby_priors.py:88-125.
The node's own generator, bilby's generator and the result afterwards. -/
noncomputable def compute (G : RStream ρ U) (k : Kind U) (params : List (Name × (Nat → ℝ))) (n : Nat) (own glob : ρ) (info : Option ρ) : ρ × ρ × Result :=
  match k with
  | .numpy dist size => match npCompute G dist size params n own info with
    | .error e => (own, glob, .err e)
    | .ok (own', _, a) => (own', glob, .arr a)
  | .invClass inv =>
    let r := invPolyCompute G inv params n own info
    (r.1, glob, .out r.2.2)
  | .invObject inv =>
    let r := invObjectCompute G inv n own info
    (r.1, glob, .out r.2)
  | .hostmass ge lt mass => match params.find? (fun p => decide (p.1 = mass)) with
    | none => (own, glob, .err .keyError)
    | some p =>
      let r := hostmassCompute G ge lt p.2 n own info
      (r.1, glob, .out r.2.2)
  | .draws used f =>
    let r := drawsCompute G used f n own info
    (r.1, glob, r.2)
  | .tabulated inv =>
    let r := tabulatedCompute G inv n own
    (r.1, glob, r.2)
  | .bilby prior =>
    let r := bilbyCompute G prior n glob info
    (own, r.1, .outs r.2.2)

/-- Whether the kind seeds bilby's generator instead of its own. -/
def Kind.isBilby : Kind U → Bool
  | .bilby _ => true
  | _ => false

/-- What a user does; `entropy` is the generator the operating system gives to a node made without a seed. -/
inductive Event (ρ U : Type)
  | create (id : Nat) (k : Kind U) (seed : Option Nat) (entropy : ρ)
  | setSeed (id : Nat) (seed : Nat)
  | sample (id : Nat) (params : List (Name × (Nat → ℝ))) (n : Nat) (info : Option ρ)

/-- Seeding a node: np_random.py:83-92, scipy_random.py:73-81, distribution_sampler.py:60-68 (its own generator), bilby_priors.py:70-86 (bilby's). -/
def seedNode (G : Gen ρ U) (w : World ρ U) (id : Nat) (nd : Node ρ U) (s : Nat) : World ρ U :=
  if nd.kind.isBilby then { nodes := w.nodes.set id nd, bilby := G.seeded s }
  else { w with nodes := w.nodes.set id { nd with own := G.seeded s } }

/-- np_random.py:71-75, scipy_random.py:60-64, distribution_sampler.py:42-46, bilby_priors.py:48-49: a new node. -/
def createNode (G : Gen ρ U) (w : World ρ U) (id : Nat) (k : Kind U) (seed : Option Nat) (entropy : ρ) : World ρ U :=
  match seed with
  | none => { w with nodes := w.nodes.set id ⟨k, entropy⟩ }
  | some s => seedNode G w id ⟨k, entropy⟩ s

/-- One event: the session afterwards and, for a sampled node, its result. -/
noncomputable def step (G : Gen ρ U) (w : World ρ U) : Event ρ U → World ρ U × Option (Nat × Result)
  | .create id k seed entropy => (createNode G w id k seed entropy, none)
  | .setSeed id s => match w.nodes.get? id with
    | none => (w, none)
    | some nd => (seedNode G w id nd s, none)
  | .sample id params n info => match w.nodes.get? id with
    | none => (w, none)
    | some nd =>
      let r := compute G.toRStream nd.kind params n nd.own w.bilby info
      ({ nodes := w.nodes.set id { nd with own := r.1 }, bilby := r.2.1 }, some (id, r.2.2))

/-- A history: the results in order, each with the node that gave it and whether its call had an explicit generator. -/
noncomputable def run (G : Gen ρ U) : World ρ U → List (Event ρ U) → List (Event ρ U × Option (Nat × Result))
  | _, [] => []
  | w, e :: es => (e, (step G w e).2) :: run G (step G w e).1 es

/-- The session after a history. -/
noncomputable def after (G : Gen ρ U) : World ρ U → List (Event ρ U) → World ρ U
  | w, [] => w
  | w, e :: es => after G (step G w e).1 es

end LCL.SeedHistory
