import Verif.Spec.Direct

/-!
# Specification vocabulary for the recorded parameters of simulated objects (C141)
-/

namespace LCL.RecordedSpec
open LCL LCL.FullRun

/-- The dictionary in the `params` column of row `k` of a table of objects. -/
def RowParams (table : Dict Name (List RCell)) (k : Nat) (d : Dict Name (Val ℝ)) : Prop :=
  ∃ l, table.get? "params".toList = some l ∧ l[k]? = some (.dict d)

/-- `GraphState.from_dict(d)`. -/
def restored (d : Dict Name (Val ℝ)) : Except Err (GState ℝ) := GState.fromDict (d.map fun q => (q.1, GState.Entry.val q.2)) 1

end LCL.RecordedSpec
