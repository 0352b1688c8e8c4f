import Verif.Model.Persist
import Verif.Spec.ObsTable

/-!
# Specification vocabulary for saved tables (C101, C102)
-/

namespace LCL.PersistSpec
open LCL LCL.ObsSpec LCL.ObsTable

/-- The class derives zero points by adding the column `zp`, or not at all; its defaults name every value once. -/
def SoundClass (C : TableClass) : Prop :=
  (∀ u u', C.assignZp u = .ok u' → u' = u ∨ ∃ l : List Cell, l.length = u.len ∧ u' = { u with cols := u.cols.set "zp".toList l }) ∧
  C.defaults.keys.Nodup ∧ C.colmap.keys.Nodup

/-- A table of the class after any history of the operations that change it: rows removed, columns added, the radius set, the footprint removed. -/
inductive Made (C : TableClass) : ObsTable → Prop
  | new {f colmap kw fp t} : (∀ q ∈ f.cols, q.2.length = f.labels.length) → f.cols.keys.Nodup → (∀ m : Dict Name Name, colmap = some m → m.keys.Nodup) →
      construct C f colmap kw fp = .ok t → Made C t
  | add {t name v o t'} : Made C t → name ≠ "ra".toList → name ≠ "dec".toList → name ≠ "filter".toList → t.addColumn name v o = .ok t' → Made C t'
  | filter {t rows t'} : Made C t → t.filterRows rows = .ok t' → Made C t'
  | radius {t x t'} : Made C t → t.setRadius x = .ok t' → Made C t'
  | clear {t} : Made C t → Made C t.clearFootprint

/-- Reading the table by the class's own column map renames nothing: a column with an original name of the map is its own standard name. -/
def NoClash (C : TableClass) (cols : List Name) : Prop := ∀ k v, (k, v) ∈ C.colmap → v ∈ cols → k = v

/-- The class derives no zero points, or the table has them. -/
def ZpSettled (C : TableClass) (t : ObsTable) : Prop := (∀ u, C.assignZp u = .ok u) ∨ "zp".toList ∈ t.cols.keys

end LCL.PersistSpec
