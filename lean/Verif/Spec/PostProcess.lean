import Verif.Model.PostProcess

/-!
# Specification vocabulary for result tables (C44, C72)
-/

namespace LCL.PostSpec
open LCL

/-- The entry at position `p` of a (flat) column. -/
def entry (d : Dict Name (List PCell)) (name : Name) (p : Nat) : Option PCell := (d.get? name).bind fun c => c[p]?

/-- The rows the flat entries belong to, counting rows from `k`. -/
def ownerFrom (k : Nat) : List Nat → List Nat
  | [] => []
  | n :: ns => List.replicate n k ++ ownerFrom (k + 1) ns

/-- The rows the flat entries belong to. -/
def owner (counts : List Nat) : List Nat := ownerFrom 0 counts

/-- The names of the columns that augmenting adds. -/
def added : List Name := ["snr".toList, "detection".toList, "mag".toList, "magerr".toList, "time_rel".toList]

/-- All flat columns have one entry for each entry of each row, and all columns one per row. -/
structure WF (r : NFrame) : Prop where
  cols : ∀ q ∈ r.cols, q.2.length = r.labels.length
  flat : ∀ c, r.lc = some c → c.counts.length = r.labels.length ∧ ∀ q ∈ c.flat, q.2.length = c.counts.sum

end LCL.PostSpec
