import Verif.Model.Nodes
import Verif.Spec.GraphState

/-!
# Specification vocabulary for parameter graphs and sampling
-/

namespace LCL.NodeSpec
open LCL LCL.GraphSpec
variable {α σ : Type}

/-- Some parameter of node `a` is produced from node `b`. -/
def Reads (H : Heap α σ) (a b : NodeId) : Prop :=
  ∃ nd p st, H[a]? = some nd ∧ (p, st) ∈ nd.setters ∧
    ((∃ q, st.src = .modelParam b q) ∨ ∃ q, st.src = .funcNode b q)

/-- Nodes reachable from some roots through parameter dependencies. -/
inductive Reach (H : Heap α σ) (roots : List NodeId) : NodeId → Prop
  | root {a} : a ∈ roots → Reach H roots a
  | step {a b} : Reach H roots a → Reads H a b → Reach H roots b

/-- Graphs as the constructors build them: dictionary keys are distinct; every link points to an
existing node; a parameter is a computed output exactly when it is listed as an output of a
function node; arguments and outputs have different names. -/
structure GraphOK (H : Heap α σ) : Prop where
  keys : ∀ nd ∈ H, nd.setters.keys.Nodup
  links : ∀ nd ∈ H, ∀ q ∈ nd.setters, ∀ d, q.2.src.dep = some d → d < H.length
  outs : ∀ nd ∈ H, ∀ p, p ∈ nd.outputs ↔ ∃ st q, (p, st) ∈ nd.setters ∧ st.src = .computeOut q
  outsNodup : ∀ nd ∈ H, nd.outputs.Nodup
  plain : ∀ nd ∈ H, nd.isFunc = false → nd.outputs = []
  args : ∀ nd ∈ H, ∀ a ∈ nd.argNames, a ∉ nd.outputs

/-- `w` is what a function returning `res` gives for the output name `p`. -/
def OutputOf (outputs : List Name) (p : Name) (res w : Val α) : Prop :=
  (outputs = [p] ∧ w = res) ∨
  (outputs.length ≠ 1 ∧ ∃ (rows : List (Val α)) (i : Nat), res = .arr rows ∧ rows.length = outputs.length ∧
    outputs[i]? = some p ∧ rows[i]? = some w)

/-- The `n`-row form of a constant. -/
def Repeated (n : Nat) (v w : Val α) : Prop :=
  (n = 1 ∧ w = v) ∨ (n ≠ 1 ∧ ∃ rows, w = .arr rows ∧ rows.length = n ∧ ∀ r ∈ rows, r = v)

/-- The arguments of a logged call are the sampled values of exactly the declared arguments. -/
def ArgsAre (nd : PNode α σ) (s : GState α) (args : Dict Name (Val α)) : Prop :=
  (∀ a ∈ nd.argNames, ∃ v, readParam s nd.str a = some v ∧ args.get? a = some v) ∧
  ∀ a, a ∉ nd.argNames → args.get? a = none

/-- The defining equation of parameter `p` (with source `st`) of node `id` in the sampled
state `s`, given the calls that were made. -/
def Equation (H : Heap α σ) (s : GState α) (calls : List (NodeId × Dict Name (Val α) × Val α))
    (id : NodeId) (nd : PNode α σ) (p : Name) : Src α → Prop
  | .const v => ∃ w, readParam s nd.str p = some w ∧ Repeated s.numSamples v w
  | .modelParam d q => ∃ dn w, H[d]? = some dn ∧ readParam s dn.str q = some w ∧
      readParam s nd.str p = some w
  | .funcNode d q => ∃ dn w, H[d]? = some dn ∧ readParam s dn.str q = some w ∧
      readParam s nd.str p = some w
  | .computeOut _ => ∃ args res u w, (id, args, res) ∈ calls ∧ ArgsAre nd s args ∧
      OutputOf nd.outputs p res u ∧ storedAs s.numSamples u w ∧ readParam s nd.str p = some w
  | .undefined => False

/-- The calls happen one after the other, each function receiving the world its predecessor
left, its logged arguments and the number of samples, and returning the logged result. -/
inductive Thread (H : Heap α σ) (n : Nat) :
    σ → List (NodeId × Dict Name (Val α) × Val α) → σ → Prop
  | nil (w) : Thread H n w [] w
  | snoc {w w1 w2 calls id args res nd f} : Thread H n w calls w1 → H[id]? = some nd →
      nd.body = some f → f w1 n args = (w2, .ok res) →
      Thread H n w (calls ++ [(id, args, res)]) w2

/-- The parameter is mentioned in the `given_args`. -/
def Given (g : Option (GState.UpdateArg α)) (n p : Name) (v : Val α) : Prop :=
  match g with
  | none => False
  | some (.graph gs) => ∃ d, gs.states.get? n = some d ∧ d.get? p = some v
  | some (.nested ds) => ∃ d, ds.get? n = some d ∧ d.get? p = some v

/-- `given_args` are proper dictionaries (distinct keys). -/
def GivenOK (g : Option (GState.UpdateArg α)) : Prop :=
  match g with
  | none => True
  | some (.graph gs) => gs.states.keys.Nodup ∧ ∀ q ∈ gs.states, q.2.keys.Nodup
  | some (.nested ds) => ds.keys.Nodup ∧ ∀ q ∈ ds, q.2.keys.Nodup

/-- A graph that has everything it needs to be sampled: no cyclic dependencies, different names,
no dots in names, every source defined and every link pointing to an existing parameter, and every
function returning one storable value per output. -/
structure Runnable (H : Heap α σ) (roots : List NodeId) (n : Nat) : Prop where
  acyclic : ∃ rank : NodeId → Nat, ∀ a b, Reach H roots a → Reads H a b → rank b < rank a
  rootsExist : ∀ a ∈ roots, a < H.length
  names : ∀ a b na nb, Reach H roots a → Reach H roots b → H[a]? = some na → H[b]? = some nb →
    na.str = nb.str → a = b
  dots : ∀ a na, Reach H roots a → H[a]? = some na → '.' ∉ na.str ∧ ∀ p ∈ na.setters.keys, '.' ∉ p
  defined : ∀ a na, Reach H roots a → H[a]? = some na → ∀ q ∈ na.setters, q.2.src ≠ .undefined
  targets : ∀ a na, Reach H roots a → H[a]? = some na → ∀ q ∈ na.setters, ∀ d x,
    (q.2.src = .modelParam d x ∨ q.2.src = .funcNode d x) → ∃ dn, H[d]? = some dn ∧ x ∈ dn.setters.keys
  args : ∀ a na, Reach H roots a → H[a]? = some na → ∀ x ∈ na.argNames, x ∈ na.setters.keys
  bodies : ∀ a na, Reach H roots a → H[a]? = some na → na.outputs ≠ [] → ∃ f, na.body = some f ∧
    ∀ w args, (∀ a ∈ na.argNames, ∃ v, Dict.get? args a = some v) → ∃ w' res, f w n args = (w', .ok res) ∧
      ∀ p ∈ na.outputs, ∃ u v, OutputOf na.outputs p res u ∧ storedAs n u v

end LCL.NodeSpec
