import Mathlib.Algebra.Order.Field.Basic
import Mathlib.Algebra.BigOperators.Group.List.Basic
import Mathlib.Tactic.Linarith
import Mathlib.Tactic.Ring
import Mathlib.Tactic.FieldSimp

/-!
# Small numpy substrate

Numbers are the elements of an arbitrary linearly ordered field `K` (exact arithmetic: rounding,
overflow, NaN and infinity are not represented; a division by zero is made explicit where the code
can reach it). These definitions model numpy, not the repository.
-/

namespace LCL
variable {K : Type} [Field K] [LinearOrder K] [IsStrictOrderedRing K]

/-- `np.cumsum`, starting from `acc`. -/
def cumFrom (acc : K) : List K → List K
  | [] => []
  | x :: xs => (acc + x) :: cumFrom (acc + x) xs

/-- `np.cumsum`. -/
def cumsum (l : List K) : List K := cumFrom 0 l

/-- `a.searchsorted(u, side="right")` for sorted `a`: the number of leading entries `≤ u`. -/
def searchRight (a : List K) (u : K) : Nat := (a.takeWhile (fun x => decide (x ≤ u))).length

/-- `a.searchsorted(u, side="left")` for sorted `a`: the number of leading entries `< u`. -/
def searchLeft (a : List K) (u : K) : Nat := (a.takeWhile (fun x => decide (x < u))).length

omit [LinearOrder K] [IsStrictOrderedRing K] in
@[simp] theorem cumFrom_length (acc : K) (l : List K) : (cumFrom acc l).length = l.length := by
  induction l generalizing acc with
  | nil => rfl
  | cons x l ih => simp [cumFrom, ih]

omit [LinearOrder K] [IsStrictOrderedRing K] in
theorem cumFrom_getElem? (acc : K) (l : List K) (i : Nat) (hi : i < l.length) :
    (cumFrom acc l)[i]? = some (acc + (l.take (i + 1)).sum) := by
  induction l generalizing acc i with
  | nil => simp at hi
  | cons x l ih =>
    cases i with
    | zero => simp [cumFrom]
    | succ i =>
      simp only [List.length_cons, Nat.add_lt_add_iff_right] at hi
      simp only [cumFrom, List.getElem?_cons_succ, ih _ i hi, List.take_succ_cons, List.sum_cons]
      rw [add_assoc]

omit [LinearOrder K] [IsStrictOrderedRing K] in
theorem cumsum_getElem? (l : List K) (i : Nat) (hi : i < l.length) :
    (cumsum l)[i]? = some ((l.take (i + 1)).sum) := by
  unfold cumsum; rw [cumFrom_getElem? 0 l i hi, zero_add]

/-- The length of a `takeWhile`, characterised on prefixes. -/
theorem takeWhile_length_iff {β : Type} (p : β → Bool) (l : List β) (i : Nat) (hi : i < l.length) :
    (l.takeWhile p).length = i ↔ (∀ j x, j < i → l[j]? = some x → p x = true) ∧ ∀ x, l[i]? = some x → p x = false := by
  induction l generalizing i with
  | nil => simp at hi
  | cons y l ih =>
    cases hy : p y with
    | false =>
      simp only [List.takeWhile, hy, List.length_nil]
      constructor
      · intro h; subst h
        refine ⟨fun j x hj => absurd hj (by omega), ?_⟩
        intro x hx; simp at hx; subst hx; exact hy
      · intro h
        by_contra hne
        have := h.1 0 y (by omega) (by simp)
        rw [hy] at this; cases this
    | true =>
      simp only [List.takeWhile, hy, List.length_cons]
      cases i with
      | zero =>
        constructor
        · intro h; omega
        · intro h; have := h.2 y (by simp); rw [hy] at this; cases this
      | succ i =>
        simp only [List.length_cons, Nat.add_lt_add_iff_right] at hi
        rw [Nat.add_right_cancel_iff, ih i hi]
        constructor
        · intro h
          refine ⟨?_, fun x hx => h.2 x (by simpa using hx)⟩
          intro j x hj hx
          cases j with
          | zero => simp at hx; subst hx; exact hy
          | succ j => exact h.1 j x (by omega) (by simpa using hx)
        · intro h
          exact ⟨fun j x hj hx => h.1 (j + 1) x (by omega) (by simpa using hx),
            fun x hx => h.2 x (by simpa using hx)⟩

theorem sum_take_mono (l : List K) (hl : ∀ x ∈ l, 0 ≤ x) {i j : Nat} (h : i ≤ j) :
    (l.take i).sum ≤ (l.take j).sum := by
  induction l generalizing i j with
  | nil => simp
  | cons x l ih =>
    have hx := hl x (by simp)
    have hl' : ∀ y ∈ l, 0 ≤ y := fun y hy => hl y (List.mem_cons_of_mem _ hy)
    cases i with
    | zero =>
      cases j with
      | zero => simp
      | succ j =>
        have := ih hl' (Nat.zero_le j)
        simp only [List.take_zero, List.sum_nil, List.take_succ_cons, List.sum_cons] at this ⊢
        linarith
    | succ i =>
      cases j with
      | zero => omega
      | succ j =>
        simp only [List.take_succ_cons, List.sum_cons]
        have := ih hl' (show i ≤ j by omega)
        linarith

theorem sum_map_div (l : List K) (c : K) : (l.map fun x => x / c).sum = l.sum / c := by
  induction l with
  | nil => simp
  | cons x l ih => simp only [List.map_cons, List.sum_cons, ih, add_div]

theorem sum_map_mul (l : List K) (c : K) : (l.map fun x => x * c).sum = l.sum * c := by
  induction l with
  | nil => simp
  | cons x l ih => simp only [List.map_cons, List.sum_cons, ih, add_mul]

theorem mem_takeWhile_pred {β : Type} {p : β → Bool} {l : List β} {x : β} (h : x ∈ l.takeWhile p) : p x = true := by
  induction l with
  | nil => simp at h
  | cons y l ih =>
    cases hy : p y with
    | false => simp [List.takeWhile, hy] at h
    | true =>
      simp only [List.takeWhile, hy, List.mem_cons] at h
      rcases h with rfl | h
      · exact hy
      · exact ih h

theorem mapM_eq {ε β γ : Type} {f : β → Except ε γ} {g : β → γ} {l : List β}
    (h : ∀ x ∈ l, f x = .ok (g x)) : l.mapM f = .ok (l.map g) := by
  induction l with
  | nil => rfl
  | cons x l ih =>
    rw [List.mapM_cons, h x (by simp), ih (fun z hz => h z (List.mem_cons_of_mem _ hz))]
    rfl

end LCL
