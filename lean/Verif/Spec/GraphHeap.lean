import Verif.Model.GraphHeap

/-!
# What a program sees of its graph states

Used to state C128 and C129.
-/

namespace LCL.GraphHeapSpec
open LCL LCL.GraphHeap

variable {α : Type}

/-- What a value shows when it is read. -/
def shown (h : Heap α) : HVal α → Val α
  | .none => .none
  | .scalar a => .scalar a
  | .arr r s l => .arr ((h.view r s l).map .scalar)
  | .list r => .arr ((h.cells r).map .scalar)

/-- What a state shows: the state of `Model/GraphState` in which every array is its contents. -/
def seenState (h : Heap α) (s : HState α) : GState α :=
  { numSamples := s.numSamples
    numParams := s.numParams
    states := s.states.map fun q => (q.1, q.2.map fun p => (p.1, shown h p.2))
    fixed := s.fixed }

/-- What state `i` of the program shows. -/
def seen (W : World α) (i : Nat) : Option (GState α) := (W.states[i]?).map (seenState W.heap)

/-- What parameter `node.var` of state `i` shows. -/
def seenParam (W : World α) (i : Nat) (node var : Name) : Option (Val α) := ((W.states[i]?).bind (lookup · node var)).map (shown W.heap)

/-- What a parameter of a state of `n` samples shows after it was set: a number is repeated. -/
def expanded (n : Nat) : Val α → Val α
  | .scalar a => .arr (List.replicate n (.scalar a))
  | v => v

/-- The values a `GivenValueList` gives after a reset. -/
def givenValues (W : World α) (g : Nat) : Option (List α) := (W.nodes[g]?).map fun nd => W.heap.view nd.ref nd.start nd.len

/-- The states a statement names. -/
def namesStates : Op α → List Nat
  | .set i _ _ _ _ _ => [i]
  | .copy i => [i]
  | .sample i _ => [i]
  | .update i j _ _ => [i, j]
  | .get i _ _ => [i]
  | .assign i _ _ _ => [i]
  | .compute _ i _ _ => [i]
  | _ => []

/-- The variables a statement names. -/
def namesVars : Op α → List Nat
  | .write x _ _ => [x]
  | .set _ _ _ x _ _ => [x]
  | .assign _ _ _ x => [x]
  | .given x => [x]
  | _ => []

/-- The nodes a statement names. -/
def namesNodes : Op α → List Nat
  | .compute g _ _ _ => [g]
  | .reset g => [g]
  | _ => []

/-- The statement writes into an array. -/
def writesArray : Op α → Bool
  | .write _ _ _ => true
  | _ => false

/-- A memory some program reaches. -/
def Reachable (W : World α) : Prop := ∃ ops, W = run start ops

end LCL.GraphHeapSpec
