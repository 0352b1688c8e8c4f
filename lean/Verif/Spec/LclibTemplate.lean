import Verif.Model.Lclib
import Verif.Model.Template
import Verif.Spec.Template

/-!
# What is said about LCLIB tables as templates (C98)
-/

namespace LCL.LclibSpec
open LCL

/-- A table with `n` rows; no column name is repeated. -/
structure Rect (t : LcTable ℝ) (n : Nat) : Prop where
  cols : ∀ p ∈ t.cols, p.2.length = n
  types : ∀ ts, t.types = some ts → ts.length = n
  names : t.cols.keys.Nodup

/-- Row `k` is an observation: its type is `S`, or the table has no types. -/
def IsObs (t : LcTable ℝ) (k : Nat) : Prop := ∀ ts, t.types = some ts → ts[k]? = some "S".toList

instance (t : LcTable ℝ) (k : Nat) : Decidable (IsObs t k) :=
  match h : t.types with
  | none => isTrue (by intro ts e; rw [h] at e; cases e)
  | some ts => if hk : ts[k]? = some "S".toList then isTrue (by intro ts' e; rw [h] at e; cases e; exact hk)
    else isFalse (fun hh => hk (hh ts h))

/-- The entry of a column in row `k`. -/
noncomputable def cell (t : LcTable ℝ) (c : Name) (k : Nat) : ℝ := ((t.cols.get? c).getD []).getD k 0

/-- The observations in a filter: times and fluxes, in table order. -/
noncomputable def obsRows (t : LcTable ℝ) (n : Nat) (f : Name) : List (ℝ × ℝ) :=
  ((List.range n).filter fun k => decide (IsObs t k)).map fun k => (cell t "time".toList k, mag2flux (cell t f k))

/-- The flux outside the observations: that of the first row that is no observation; zero if there is none. -/
def Base (t : LcTable ℝ) (n : Nat) (f : Name) (b : ℝ) : Prop :=
  ((∀ k, k < n → IsObs t k) ∧ b = 0) ∨
  ∃ k, k < n ∧ ¬ IsObs t k ∧ (∀ j, j < k → IsObs t j) ∧ b = mag2flux (cell t f k)

/-- The filter columns asked for. -/
def Wanted (t : LcTable ℝ) (filters : Option (List Name)) (f : Name) : Prop :=
  f ∈ t.cols.keys ∧ f ≠ "time".toList ∧ ∀ fs, filters = some fs → f ∈ fs

/-- The table is marked as periodic. -/
def Periodic (t : LcTable ℝ) : Prop :=
  t.info.get? "RECUR_CLASS".toList = some (.str "PERIODIC".toList) ∨
  t.info.get? "RECUR_CLASS".toList = some (.str "RECUR-PERIODIC".toList)

/-- The table is marked as not periodic, or not at all. -/
def NonPeriodic (t : LcTable ℝ) : Prop :=
  t.info.get? "RECUR_CLASS".toList = none ∨ t.info.get? "RECUR_CLASS".toList = some (.str []) ∨
  t.info.get? "RECUR_CLASS".toList = some (.str "NON-RECUR".toList) ∨
  t.info.get? "RECUR_CLASS".toList = some (.str "RECUR-NONPERIODIC".toList)

/-- Every wanted filter ends at the flux it starts with (within numpy's tolerance). -/
def EndsMeet (t : LcTable ℝ) (n : Nat) (filters : Option (List Name)) : Prop :=
  ∀ f, Wanted t filters f → ∀ p q, (obsRows t n f).head? = some p → (obsRows t n f).getLast? = some q → isClose p.2 q.2

/-- One period of the curve in a filter: the observations if all filters end where they start; otherwise the
observations and a return to the first flux, one average step after the last observation. -/
def Cycle (t : LcTable ℝ) (n : Nat) (filters : Option (List Name)) (f : Name) (rows : List (ℝ × ℝ)) : Prop :=
  (EndsMeet t n filters ∧ rows = obsRows t n f) ∨
  (¬ EndsMeet t n filters ∧ ∃ p q, (obsRows t n f).head? = some p ∧ (obsRows t n f).getLast? = some q ∧
    rows = obsRows t n f ++ [(q.1 + (q.1 - p.1) / ((obsRows t n f).length - 1), p.2)])

end LCL.LclibSpec
