import Verif.Model.Samplers
import Verif.Spec.GraphState

/-!
# Specification vocabulary for samplers: call histories and what they handed out
-/

namespace LCL.SamplerSpec
open LCL LCL.GraphSpec
variable {α σ ρ : Type}

/-- What the user does with a stateful sampler. -/
inductive Call (α : Type)
  | reset
  | compute (s : GState α)

/-- What the user saw. -/
inductive Event (α : Type)
  | reset
  | asked (n : Nat) (r : Except Err (Val α))

/-- The samples in a result for `n` samples: one value is the value itself, several are rows. -/
def rowsOf (n : Nat) (v : Val α) : List (Val α) := if n = 1 then [v] else cells v

/-- Sample `k` of a stored value in a state with `n` samples. -/
def sampleAt (n : Nat) (v : Val α) (k : Nat) : Option (Val α) := (rowsOf n v)[k]?

/-- Everything handed out since the last reset (events oldest first). -/
def handed (evs : List (Event α)) : List (Val α) :=
  evs.foldl (fun acc e => match e with
    | .reset => []
    | .asked n (.ok v) => acc ++ rowsOf n v
    | .asked _ (.error _) => acc) []

/-- How many samples were handed out since the last reset. -/
def served (evs : List (Event α)) : Nat :=
  evs.foldl (fun acc e => match e with
    | .reset => 0
    | .asked n (.ok _) => acc + n
    | .asked _ (.error _) => acc) 0

/-- Every state the sampler was called on is one a program can build. -/
def ReachableCalls (calls : List (Call α)) : Prop := ∀ s, Call.compute s ∈ calls → Reachable s

/-- One call on a `GivenValueList`, recorded. -/
def listStep (nd : PNode α σ) (acc : GivenList α × List (Event α)) : Call α → GivenList α × List (Event α)
  | .reset => (acc.1.reset, acc.2 ++ [.reset])
  | .compute s => ((acc.1.compute nd s).1, acc.2 ++ [.asked s.numSamples (acc.1.compute nd s).2.2])

/-- Use a `GivenValueList` for a history of calls. -/
def listRun (nd : PNode α σ) (g : GivenList α) (calls : List (Call α)) : GivenList α × List (Event α) :=
  calls.foldl (listStep nd) (g, [])

/-- One call on a `TableSampler`, recorded. -/
def tableStep (G : IntGen ρ) (nd : PNode α σ) (acc : (TableSampler α × ρ) × List (Event α)) :
    Call α → (TableSampler α × ρ) × List (Event α)
  | .reset => ((acc.1.1.reset, acc.1.2), acc.2 ++ [.reset])
  | .compute s => ((acc.1.1.compute G nd acc.1.2 s).1,
      acc.2 ++ [.asked s.numSamples (acc.1.1.compute G nd acc.1.2 s).2.2])

/-- Use a `TableSampler` for a history of calls. -/
def tableRun (G : IntGen ρ) (nd : PNode α σ) (t : TableSampler α) (r : ρ) (calls : List (Call α)) :
    (TableSampler α × ρ) × List (Event α) :=
  calls.foldl (tableStep G nd) ((t, r), [])

end LCL.SamplerSpec
