import Verif.Model.SeedHistory

/-!
# Vocabulary of C116
-/

namespace LCL.SeedSpec
open LCL LCL.RandomNodes LCL.SeedHistory

variable {ρ U : Type}

/-- What a node is asked for without an explicit generator: the parameters and the number of samples of each call, in order. -/
def asked (id : Nat) : List (Event ρ U) → List (List (Name × (Nat → ℝ)) × Nat)
  | [] => []
  | .sample j params n none :: es => if j = id then (params, n) :: asked id es else asked id es
  | _ :: es => asked id es

/-- What a node gave in those calls. -/
def given (id : Nat) : List (Event ρ U × Option (Nat × Result)) → List Result
  | [] => []
  | (.sample j _ _ none, some (_, r)) :: l => if j = id then r :: given id l else given id l
  | _ :: l => given id l

/-- The history neither makes the node anew nor seeds it. -/
def LeavesAlone (id : Nat) (es : List (Event ρ U)) : Prop :=
  ∀ e ∈ es, (∀ k s x, e ≠ .create id k s x) ∧ ∀ s, e ≠ .setSeed id s

/-- Kinds that draw from their own generator, or from an explicit one when it is given. -/
def OwnGenerator : Kind U → Prop
  | .tabulated _ => False
  | .bilby _ => False
  | _ => True

/-- The node is never sampled with an explicit generator. -/
def NoExplicit (id : Nat) (es : List (Event ρ U)) : Prop := ∀ params n g, .sample id params n (some g) ∉ es

/-- No other node draws from bilby's generator: none is there, and none is made. -/
def OnlyBilby (id : Nat) (w : World ρ U) (es : List (Event ρ U)) : Prop :=
  (∀ j nd, j ≠ id → w.nodes.get? j = some nd → nd.kind.isBilby = false) ∧ ∀ j k s x, .create j k s x ∈ es → k.isBilby = false

end LCL.SeedSpec
