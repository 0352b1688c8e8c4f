import Verif.Model.FullRun
import Verif.Spec.Nodes
import Verif.Spec.EndToEnd

/-!
# Specification vocabulary for a whole run of `simulate_lightcurves` (C119)
-/

namespace LCL.FullRunSpec
open LCL LCL.GraphSpec LCL.EndToEnd LCL.FullRun

/-- The value of a parameter in sample `k` of a sampled state: with one sample the stored value, with several row `k` of the stored array. -/
def sampleValue (gs : GState ℝ) (node param : Name) (k : Nat) : Option (Val ℝ) :=
  if gs.numSamples = 1 then readParam gs node param else (readParam gs node param).bind fun v => rowAt v k

/-- A number or None as the models read it. -/
def asParam : Val ℝ → Option (PVal ℝ)
  | .none => some .none
  | .scalar x => some (.num x)
  | .arr _ => none

/-- A number or None. -/
def cellOf : Option ℝ → Val ℝ
  | none => .none
  | some x => .scalar x

/-- `st` is sample `k` of the sampled state: it holds, for every node and parameter, the value of that sample. -/
def StateOf (gs : GState ℝ) (k : Nat) (st : SState ℝ) : Prop :=
  ∀ node param, (st.get? node).bind (·.get? param) = (sampleValue gs node param k).bind asParam

/-- A column of the table of objects with `n` entries, entry `k` being `f k`. -/
def IsColumn (table : Dict Name (List RCell)) (name : String) (n : Nat) (f : Nat → Option RCell) : Prop :=
  ∃ l, table.get? name.toList = some l ∧ l.length = n ∧ ∀ k, k < n → l[k]? = f k

/-- The names of the columns every table of objects has. -/
def standardCols : List Name := ["id".toList, "ra".toList, "dec".toList, "nobs".toList, "t0".toList, "z".toList, "params".toList]

/-- Node `root` has the parameters of a physical model. -/
def Physical {σ : Type} (H : Heap ℝ σ) (root : NodeId) : Prop :=
  ∃ nd, H[root]? = some nd ∧ ∀ p ∈ ["ra".toList, "dec".toList, "t0".toList, "redshift".toList], ∃ st, (p, st) ∈ nd.setters

end LCL.FullRunSpec
