import Verif.Model.ObsTable

/-!
# Specification vocabulary for observation tables (C37-C39, C68)
-/

namespace LCL.ObsSpec
open LCL Real

/-- The great-circle separation, in radians, of two positions given in degrees. -/
noncomputable def sep (ra dec ra' dec' : ℝ) : ℝ :=
  arccos (sin (dec * (π / 180)) * sin (dec' * (π / 180)) +
    cos (dec * (π / 180)) * cos (dec' * (π / 180)) * cos (ra * (π / 180) - ra' * (π / 180)))

/-- The cell of row `i` in the named column. -/
def cell (t : ObsTable) (name : Name) (i : Nat) : Option Cell := (t.cols.get? name).bind fun c => c[i]?

/-- The number in row `i` of the named column. -/
def num (t : ObsTable) (name : Name) (i : Nat) : Option ℝ :=
  match cell t name i with
  | some (.num x) => some x
  | _ => none

/-- The bound an argument gives to query `k`; `none` means unbounded. -/
def boundAt : ObsTable.TArg → Nat → Option ℝ
  | .none, _ => none
  | .scalar x, _ => some x
  | .arr l, k => l[k]?

/-- Row `i` is an observation of the point `q`: its pointing is within `r` degrees, its time within the
bounds, and its footprint, turned by the row's rotation if there is one, contains the point. -/
def Match (t : ObsTable) (q : ℝ × ℝ) (r : ℝ) (lo hi : Option ℝ) (i : Nat) : Prop :=
  ∃ ra dec, num t "ra".toList i = some ra ∧ num t "dec".toList i = some dec ∧ sep q.1 q.2 ra dec ≤ r * (π / 180) ∧
    (∀ b, lo = some b → ∃ tm, num t "time".toList i = some tm ∧ b ≤ tm) ∧
    (∀ b, hi = some b → ∃ tm, num t "time".toList i = some tm ∧ tm ≤ b) ∧
    (∀ fp, t.footprint = some fp → fp q.1 q.2 ra dec (num t "rotation".toList i) = true)

/-- Every column has one entry per row, and column names are distinct. -/
def WF (t : ObsTable) : Prop := (∀ q ∈ t.cols, q.2.length = t.len) ∧ t.cols.keys.Nodup

/-- The tables reachable from a constructor by the operations of the class; a pointing column may not be
overwritten (that is what `C37_overwrite_counterexample` is about). The constructor of a subclass may derive
columns from others. -/
inductive Built : ObsTable → Prop
  | init {required zp cols labels colmap survey fp t} : (∀ q ∈ cols, q.2.length = labels.length) → cols.keys.Nodup →
      (colmap : Dict Name Name).keys.Nodup → (∀ u u', WF u → zp u = .ok u' → WF u') →
      ObsTable.init required zp cols labels colmap survey fp = .ok t → Built t
  | add {t name v o t'} : Built t → name ≠ "ra".toList → name ≠ "dec".toList → t.addColumn name v o = .ok t' → Built t'
  | filter {t rows t'} : Built t → t.filterRows rows = .ok t' → Built t'
  | radius {t x t'} : Built t → t.setRadius x = .ok t' → Built t'
  | clear {t} : Built t → Built t.clearFootprint
  | constant {t name cp t' b} : Built t → t.assignConstant name cp = .ok (t', b) → Built t'

/-- The rows of a table kept by a mask. -/
def keep {β : Type} : List Bool → List β → List β
  | true :: m, x :: l => x :: keep m l
  | false :: m, _ :: l => keep m l
  | _, _ => []

/-- The table built afresh from the rows kept by a mask: the same columns and settings. -/
def FreshFrom (t : ObsTable) (m : List Bool) (u : ObsTable) : Prop :=
  ObsTable.init [] (fun x => .ok x) (t.cols.map fun q => (q.1, keep m q.2))
    ((List.range (m.count true)).map fun (i : Nat) => (i : Int)) [] t.survey t.footprint = .ok u

end LCL.ObsSpec
