import Verif.Model.BicubicGrid
import Verif.Props.Bicubic

/-!
# Property C48: the arrays of a call
-/

namespace LCL.BicubicGridProps
open LCL LCL.BicubicProps
variable {K : Type} [Field K] [LinearOrder K] [IsStrictOrderedRing K] [FloorRing K] {α β γ δ ε κ : Type}

/-- The pairs of queries, row by row. -/
def pairs (xs : List α) (ys : List β) : List (α × β) := xs.flatMap fun x => ys.map fun y => (x, y)

theorem expand_eq (f : α → γ) (g : β → δ) (xs : List α) (ys : List β) :
    expandToCross (xs.map f) (ys.map g) = ((pairs xs ys).map fun p => f p.1, (pairs xs ys).map fun p => g p.2) := by
  induction xs with
  | nil => rfl
  | cons x xs ih =>
    simp only [expandToCross, meshgridIJ, pairs, Prod.mk.injEq, List.map_cons, List.flatten_cons, List.flatMap_cons, List.map_append,
      List.map_map] at ih ⊢
    exact ⟨by rw [ih.1]; rfl, by rw [ih.2]; rfl⟩

theorem pairs_length (xs : List α) (ys : List β) : (pairs xs ys).length = xs.length * ys.length := by
  induction xs with
  | nil => simp [pairs]
  | cons x xs ih =>
    simp only [pairs, List.flatMap_cons, List.length_append, List.length_map, List.length_cons] at ih ⊢
    rw [ih]; ring

theorem pairs_get (xs : List α) (ys : List β) {i j : Nat} {x : α} {y : β} (hx : xs[i]? = some x) (hy : ys[j]? = some y) :
    (pairs xs ys)[i * ys.length + j]? = some (x, y) := by
  have hj : j < ys.length := (List.getElem?_eq_some_iff.1 hy).1
  induction xs generalizing i with
  | nil => simp at hx
  | cons a xs ih =>
    unfold pairs
    rw [List.flatMap_cons]
    cases i with
    | zero =>
      simp only [List.getElem?_cons_zero, Option.some.injEq] at hx
      subst hx
      rw [Nat.zero_mul, Nat.zero_add, List.getElem?_append_left (by simpa using hj)]
      simp [hy]
    | succ i =>
      rw [List.getElem?_cons_succ] at hx
      have e : (i + 1) * ys.length + j = ys.length + (i * ys.length + j) := by ring
      rw [e, List.getElem?_append_right (by simp)]
      simp only [List.length_map, Nat.add_sub_cancel_left]
      exact ih hx

theorem zip4_map (l : List κ) (F : α → β → γ → δ → ε) (f : κ → α) (g : κ → β) (h : κ → γ) (k : κ → δ) :
    zip4 F (l.map f) (l.map g) (l.map h) (l.map k) = l.map fun x => F (f x) (g x) (h x) (k x) := by
  unfold zip4
  induction l with
  | nil => rfl
  | cons x l ih => simp only [List.map_cons, List.zip_cons_cons, List.zipWith_cons_cons, ih]

theorem where_map (l : List κ) (m : κ → Bool) (f g : κ → α) :
    whereMask (l.map m) (l.map f) (l.map g) = l.map fun x => if m x then f x else g x := by
  unfold whereMask
  induction l with
  | nil => rfl
  | cons x l ih => simp only [List.map_cons, List.zip_cons_cons, List.zipWith_cons_cons, ih]

theorem zipWith_map2 (l : List κ) (F : α → β → γ) (f : κ → α) (g : κ → β) : List.zipWith F (l.map f) (l.map g) = l.map fun x => F (f x) (g x) := by
  induction l with
  | nil => rfl
  | cons x l ih => simp [ih]

theorem at_eq (b : Bicubic K) (p : K × K) : b.at p.1 p.2 =
    if b.x.outside p.1 || b.y.outside p.2 then some 0
    else if b.x.onEdge p.1 || b.y.onEdge p.2 then linearEl b.z (b.x.find p.1) (b.y.find p.2) (b.x.frac p.1) (b.y.frac p.2)
    else cubicEl b.z (b.x.find p.1) (b.y.find p.2) (b.x.dist p.1) (b.y.dist p.2) := rfl

/-- C48: the flattened arrays of all pairs: every x is repeated for all y, in the order of the queries. -/
theorem C48_cross_products (xs : List α) (ys : List β) :
    (expandToCross xs ys).1.length = xs.length * ys.length ∧ (expandToCross xs ys).2.length = xs.length * ys.length ∧
    ∀ (i j : Nat) x y, xs[i]? = some x → ys[j]? = some y →
      (expandToCross xs ys).1[i * ys.length + j]? = some x ∧ (expandToCross xs ys).2[i * ys.length + j]? = some y := by
  have e := expand_eq (fun x => x) (fun y => y) xs ys
  rw [List.map_id', List.map_id'] at e
  rw [e]
  refine ⟨by simp [pairs_length], by simp [pairs_length], ?_⟩
  intro i j x y hx hy
  simp only [List.getElem?_map, pairs_get xs ys hx hy, Option.map_some, and_self]

/-- C48: a call on arrays, carried out on the flattened arrays as the code does it, gives at row `i` and column `j` the value of the pair
of the `i`-th x and the `j`-th y. -/
theorem C48_call_arrays (b : Bicubic K) (xs ys : List K) :
    ∃ out, b.callArrays xs ys = .ok out ∧ out.length = xs.length ∧ ∀ (i j : Nat) qx qy, xs[i]? = some qx → ys[j]? = some qy →
      ∃ row, out[i]? = some row ∧ row.length = ys.length ∧ row[j]? = some (b.at qx qy) := by
  have key : b.callArrays xs ys = reshape2 xs.length ys.length ((pairs xs ys).map fun p => b.at p.1 p.2) := by
    unfold Bicubic.callArrays
    simp only [expand_eq, zip4_map, zipWith_map2, List.map_map, Function.comp_def, where_map]
    rfl
  refine ⟨_, by rw [key, reshape2, if_pos (by simp [pairs_length])], by simp, ?_⟩
  intro i j qx qy hx hy
  obtain ⟨hi, -⟩ := List.getElem?_eq_some_iff.1 hx
  obtain ⟨hj, -⟩ := List.getElem?_eq_some_iff.1 hy
  refine ⟨_, by rw [List.getElem?_map, List.getElem?_range hi]; rfl, ?_, ?_⟩
  · rw [List.length_take, List.length_drop, List.length_map, pairs_length]
    have : i * ys.length + ys.length ≤ xs.length * ys.length := by
      have := Nat.mul_le_mul_right ys.length (Nat.succ_le_of_lt hi)
      rwa [Nat.succ_mul] at this
    omega
  · rw [List.getElem?_take_of_lt hj, List.getElem?_drop, List.getElem?_map, pairs_get xs ys hx hy]
    rfl

/-- A concrete call: two queries in x, three in y. -/
example : expandToCross [1, 2] [7, 8, 9] = ([1, 1, 1, 2, 2, 2], [7, 8, 9, 7, 8, 9]) := rfl

end LCL.BicubicGridProps
