import Verif.Model.Iterate
import Verif.Spec.GraphState

/-!
# Specification vocabulary for stepping through samples (C143)
-/

namespace LCL.IterateSpec
open LCL LCL.GraphSpec LCL.Iterate
variable {α : Type}

/-- `g` is sample `k` of the state `s`: a state of one sample in which every parameter has its value of that sample. -/
def IsSample (s : GState α) (k : Nat) (g : GState α) : Prop :=
  g.numSamples = 1 ∧ ∀ node p, readParam g node p = if s.numSamples = 1 then readParam s node p else (readParam s node p).bind fun v => rowAt v k

/-- The calls in a history that change the state. -/
def writes : List (Act α) → List (Op α)
  | [] => []
  | .set n p v f :: rest => .set n p v f :: writes rest
  | .update a f :: rest => .update a f :: writes rest
  | _ :: rest => writes rest

/-- How many generators a history makes. -/
def made : List (Act α) → Nat
  | [] => 0
  | .iter :: rest => made rest + 1
  | _ :: rest => made rest

/-- How often a history advances generator `i`, once `n` generators were made. -/
def advanced (i : Nat) : Nat → List (Act α) → Nat
  | _, [] => 0
  | n, .iter :: rest => advanced i (n + 1) rest
  | n, .advance j :: rest => (if j = i ∧ i < n then 1 else 0) + advanced i n rest
  | n, _ :: rest => advanced i n rest

end LCL.IterateSpec
