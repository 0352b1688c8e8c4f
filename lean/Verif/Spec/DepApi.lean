import Verif.Model.DepApi
import Mathlib.Data.Set.Card

/-!
# Specification vocabulary for filling a dependency graph by hand (C16)
-/

namespace LCL.DepApiSpec
open LCL
variable {α : Type}

/-- The calls that add a constant. -/
def isConst : DepOp α → Bool
  | .const _ => true
  | _ => false

/-- Some call added a parameter of this name: by that name, by its name in a node, or as a constant numbered by the constants before it. -/
def Added (txt : Val α → Name) (ops : List (DepOp α)) (p : Name) : Prop :=
  DepOp.param p none ∈ ops ∨ (∃ q n, DepOp.param q (some n) ∈ ops ∧ p = n ++ '.' :: q) ∨
  ∃ pre v post, ops = pre ++ DepOp.const v :: post ∧ p = "const_".toList ++ (decimal (pre.countP isConst) ++ '=' :: txt v)

open Classical in
/-- How often the program asked for the edge when both its ends had been added. -/
noncomputable def edgesMade (txt : Val α → Name) (ops : List (DepOp α)) (x y : Name) : Nat :=
  (List.range ops.length).countP fun i => decide (ops[i]? = some (.edge x y) ∧ Added txt (ops.take i) x ∧ Added txt (ops.take i) y)

/-- How often `x` is listed among the incoming edges of `y`; `y` among the outgoing edges of `x`. -/
def listedIn (g : DepGraph) (x y : Name) : Nat := ((g.incoming.get? y).getD []).count x
def listedOut (g : DepGraph) (x y : Name) : Nat := ((g.outgoing.get? x).getD []).count y

end LCL.DepApiSpec
