import Verif.Model.Bayesn
import Verif.Spec.Bayesn
import Mathlib.LinearAlgebra.Matrix.ToLinearEquiv
import Mathlib.Algebra.BigOperators.Fin
import Mathlib.Algebra.BigOperators.Ring.Finset
import Mathlib.Tactic.LinearCombination
import Mathlib.Tactic.ComputeDegree
import Mathlib.Tactic.Positivity

/-! # Facts about tridiagonal systems and cubic pieces -/

namespace LCL.BayesnLemmas
open Bayesn Polynomial Finset
variable {K : Type} [Field K] [LinearOrder K] [IsStrictOrderedRing K]

/-- A diagonally dominant tridiagonal system with zero right-hand side and zero ends has only the zero solution. -/
theorem tri_zero (n : Nat) (h m : Nat → K) (hh : ∀ i, i + 1 < n → 0 < h i) (h0 : m 0 = 0) (hl : m (n - 1) = 0)
    (eqs : ∀ i, i + 2 < n → h i * m i + 2 * (h i + h (i + 1)) * m (i + 1) + h (i + 1) * m (i + 2) = 0) :
    ∀ i, i < n → m i = 0 := by
  intro i hi
  obtain ⟨k, hk, hmax⟩ := Finset.exists_max_image (Finset.range n) (fun i => |m i|) ⟨i, Finset.mem_range.2 hi⟩
  have hmax' : ∀ j, j < n → |m j| ≤ |m k| := fun j hj => hmax j (Finset.mem_range.2 hj)
  have hk' : k < n := Finset.mem_range.1 hk
  have hz : m k = 0 := by
    rcases Nat.eq_zero_or_pos k with rfl | hpos
    · exact h0
    obtain ⟨j, rfl⟩ : ∃ j, k = j + 1 := ⟨k - 1, by omega⟩
    by_cases hlast : j + 2 = n
    · have : n - 1 = j + 1 := by omega
      rw [← this]; exact hl
    have hj : j + 2 < n := by omega
    have e := eqs j hj
    have p1 := hh j (by omega)
    have p2 := hh (j + 1) (by omega)
    have b1 := abs_le.1 (hmax' j (by omega))
    have b2 := abs_le.1 (hmax' (j + 2) hj)
    by_contra hne
    rcases lt_or_gt_of_ne hne with hneg | hpos'
    · rw [abs_of_neg hneg] at b1 b2
      nlinarith [mul_le_mul_of_nonneg_left b1.2 p1.le, mul_le_mul_of_nonneg_left b2.2 p2.le, mul_neg_of_pos_of_neg p1 hneg, mul_neg_of_pos_of_neg p2 hneg]
    · rw [abs_of_pos hpos'] at b1 b2
      nlinarith [mul_le_mul_of_nonneg_left b1.1 p1.le, mul_le_mul_of_nonneg_left b2.1 p2.le, mul_pos p1 hpos', mul_pos p2 hpos']
  have := hmax' i hi
  rw [hz, abs_zero] at this
  exact abs_eq_zero.1 (le_antisymm this (abs_nonneg _))

/-- The tridiagonal row times a vector. -/
theorem tri_row (N i : Nat) (hi : i < N) (A B C : K) (f : Nat → K) :
    (∑ j ∈ range N, (if j = i then A else if j + 1 = i then B else if j = i + 1 then C else 0) * f j) =
      A * f i + (if 1 ≤ i then B * f (i - 1) else 0) + (if i + 1 < N then C * f (i + 1) else 0) := by
  have key : ∀ j ∈ range N, (if j = i then A else if j + 1 = i then B else if j = i + 1 then C else 0) * f j =
      (if i = j then A * f j else 0) + (if 1 ≤ i then (if i - 1 = j then B * f j else 0) else 0) +
        (if i + 1 = j then C * f j else 0) := by
    intro j _
    by_cases h1 : j = i
    · subst h1
      simp
      intro h h'; omega
    · by_cases h2 : j + 1 = i
      · subst h2
        simp
        intro h; omega
      · by_cases h3 : j = i + 1
        · subst h3
          simp
          intro h; omega
        · have a1 : ¬ i = j := fun h => h1 h.symm
          have a3 : ¬ i + 1 = j := fun h => h3 h.symm
          simp only [if_neg h1, if_neg h2, if_neg h3, if_neg a1, if_neg a3, zero_mul, add_zero, zero_add]
          split
          · rw [if_neg (by omega)]
          · rfl
  rw [Finset.sum_congr rfl key, Finset.sum_add_distrib, Finset.sum_add_distrib, Finset.sum_ite_eq, if_pos (Finset.mem_range.2 hi),
    Finset.sum_ite_eq]
  simp only [Finset.mem_range]
  congr 2
  by_cases h : 1 ≤ i
  · simp only [if_pos h]
    rw [Finset.sum_ite_eq, if_pos (Finset.mem_range.2 (by omega))]
  · simp only [if_neg h, Finset.sum_const_zero]

/-- The three-term row of `D` times a vector. -/
theorem d_row (N i : Nat) (hi : i + 2 < N) (A B C : K) (f : Nat → K) :
    (∑ j ∈ range N, (if j = i then A else if j = i + 1 then B else if j = i + 2 then C else 0) * f j) =
      A * f i + B * f (i + 1) + C * f (i + 2) := by
  have key : ∀ j ∈ range N, (if j = i then A else if j = i + 1 then B else if j = i + 2 then C else 0) * f j =
      (if i = j then A * f j else 0) + (if i + 1 = j then B * f j else 0) + (if i + 2 = j then C * f j else 0) := by
    intro j _
    by_cases h1 : j = i
    · subst h1; simp
    · by_cases h2 : j = i + 1
      · subst h2; simp
      · by_cases h3 : j = i + 2
        · subst h3; simp
        · have a1 : ¬ i = j := fun h => h1 h.symm
          have a2 : ¬ i + 1 = j := fun h => h2 h.symm
          have a3 : ¬ i + 2 = j := fun h => h3 h.symm
          simp [h1, h2, h3, a1, a2, a3]
  rw [Finset.sum_congr rfl key, Finset.sum_add_distrib, Finset.sum_add_distrib, Finset.sum_ite_eq, Finset.sum_ite_eq, Finset.sum_ite_eq,
    if_pos (Finset.mem_range.2 (by omega)), if_pos (Finset.mem_range.2 (by omega)), if_pos (Finset.mem_range.2 hi)]

/-- Interior row `i` of `K` applied to `f 1, …, f (n-2)`, when `f` vanishes at both ends. -/
theorem k_row (x : List K) (f : Nat → K) (h0 : f 0 = 0) (hl : f (x.length - 1) = 0) (i : Fin (x.length - 2)) :
    (kMatrix x).mulVec (fun j => f (j.1 + 1)) i =
      gap x i / 6 * f i + (gap x i + gap x (i + 1)) / 3 * f (i + 1) + gap x (i + 1) / 6 * f (i + 2) := by
  have hi := i.2
  have : (kMatrix x).mulVec (fun j => f (j.1 + 1)) i =
      ∑ j ∈ range (x.length - 2), (if j = i.1 then (gap x i + gap x (i + 1)) / 3 else if j + 1 = i.1 then gap x i / 6
        else if j = i.1 + 1 then gap x (i + 1) / 6 else 0) * f (j + 1) := by
    rw [← Fin.sum_univ_eq_sum_range (fun j => (if j = i.1 then (gap x i + gap x (i + 1)) / 3 else if j + 1 = i.1 then gap x i / 6
        else if j = i.1 + 1 then gap x (i + 1) / 6 else 0) * f (j + 1))]
    rfl
  rw [this, tri_row _ _ hi _ _ _ (fun j => f (j + 1))]
  have e1 : (if 1 ≤ i.1 then gap x i / 6 * f (i.1 - 1 + 1) else 0) = gap x i / 6 * f i := by
    by_cases h : 1 ≤ i.1
    · rw [if_pos h, Nat.sub_add_cancel h]
    · have : i.1 = 0 := by omega
      rw [if_neg h, this, h0, mul_zero]
  have e2 : (if i.1 + 1 < x.length - 2 then gap x (i + 1) / 6 * f (i.1 + 1 + 1) else 0) = gap x (i + 1) / 6 * f (i + 2) := by
    by_cases h : i.1 + 1 < x.length - 2
    · rw [if_pos h]
    · have : i.1 + 2 = x.length - 1 := by omega
      rw [if_neg h, this, hl, mul_zero]
  rw [e1, e2]; ring

/-- Row `i` of `D` applied to `y`. -/
theorem d_apply (x : List K) (f : Nat → K) (i : Fin (x.length - 2)) :
    (dMatrix x).mulVec (fun j => f j.1) i =
      (f (i + 2) - f (i + 1)) / gap x (i + 1) - (f (i + 1) - f i) / gap x i := by
  have hi := i.2
  have : (dMatrix x).mulVec (fun j => f j.1) i =
      ∑ j ∈ range x.length, (if j = i.1 then 1 / gap x i else if j = i.1 + 1 then -1 / gap x i - 1 / gap x (i + 1)
        else if j = i.1 + 2 then 1 / gap x (i + 1) else 0) * f j := by
    rw [← Fin.sum_univ_eq_sum_range (fun j => (if j = i.1 then 1 / gap x i else if j = i.1 + 1 then -1 / gap x i - 1 / gap x (i + 1)
        else if j = i.1 + 2 then 1 / gap x (i + 1) else 0) * f j)]
    rfl
  rw [this, d_row _ _ (by omega) _ _ _ f]
  ring

theorem gap_pos {x : List K} (hx : x.Pairwise (· < ·)) {i : Nat} (hi : i + 1 < x.length) : 0 < gap x i := by
  have := List.pairwise_iff_getElem.1 hx i (i + 1) (by omega) hi (by omega)
  unfold gap Bayesn.val
  rw [List.getD_eq_getElem?_getD, List.getD_eq_getElem?_getD, List.getElem?_eq_getElem hi, List.getElem?_eq_getElem (show i < x.length by omega)]
  simpa using this

/-- The tridiagonal matrix of strictly increasing knots is invertible. -/
theorem k_det {x : List K} (hx : x.Pairwise (· < ·)) : (kMatrix x).det ≠ 0 := by
  intro hdet
  obtain ⟨v, hv, hv0⟩ := Matrix.exists_mulVec_eq_zero_iff.2 hdet
  apply hv
  let f : Nat → K := fun r => if h : 1 ≤ r ∧ r - 1 < x.length - 2 then v ⟨r - 1, h.2⟩ else 0
  have fj : ∀ j : Fin (x.length - 2), f (j.1 + 1) = v j := by
    intro j
    have hc : 1 ≤ j.1 + 1 ∧ j.1 + 1 - 1 < x.length - 2 := ⟨by omega, by have := j.2; omega⟩
    simp only [f, dif_pos hc]
    rfl
  have f0 : f 0 = 0 := by simp [f]
  have fl : f (x.length - 1) = 0 := by
    simp only [f]
    rw [dif_neg]; rintro ⟨h1, h2⟩; omega
  have hfv : (fun j : Fin (x.length - 2) => f (j.1 + 1)) = v := funext fj
  funext j
  have hj := j.2
  have := tri_zero x.length (gap x) f (fun i hi => gap_pos hx hi) f0 fl (fun i hi => by
    have := k_row x f f0 fl ⟨i, by omega⟩
    rw [hfv, hv0] at this
    simp only [Pi.zero_apply] at this
    linear_combination -6 * this) (j.1 + 1) (by omega)
  rw [fj j] at this
  exact this

/-- `compute_invkd` succeeds, and applying it to knot values gives the solution of the natural spline equations. -/
theorem invkd_ok {x : List K} (hx : x.Pairwise (· < ·)) (hn : 2 ≤ x.length) : ∃ W, computeInvkd x = .ok W ∧
    (∀ c, W 0 c = 0) ∧ (∀ c, W (x.length - 1) c = 0) ∧ ∀ (f : Nat → K) (i : Nat), i + 2 < x.length →
      gap x i / 6 * (∑ c ∈ range x.length, W i c * f c) + (gap x i + gap x (i + 1)) / 3 * (∑ c ∈ range x.length, W (i + 1) c * f c) +
        gap x (i + 1) / 6 * (∑ c ∈ range x.length, W (i + 2) c * f c) =
        (f (i + 2) - f (i + 1)) / gap x (i + 1) - (f (i + 1) - f i) / gap x i := by
  refine ⟨_, by unfold computeInvkd linSolve; rw [if_neg (by omega), if_neg (k_det hx)], ?_, ?_, ?_⟩
  · intro c; rw [dif_neg]; rintro ⟨h, _⟩; omega
  · intro c; rw [dif_neg]; rintro ⟨h, h', _⟩; omega
  · intro f i hi
    set X := (kMatrix x)⁻¹ * dMatrix x with hX
    set W : Nat → Nat → K := fun r c =>
        if h : 1 ≤ r ∧ r - 1 < x.length - 2 ∧ c < x.length then X ⟨r - 1, h.2.1⟩ ⟨c, h.2.2⟩ else 0 with hW
    let m : Nat → K := fun r => ∑ c ∈ range x.length, W r c * f c
    have m0 : m 0 = 0 := by
      apply Finset.sum_eq_zero; intro c _; rw [hW]; dsimp only; rw [dif_neg, zero_mul]; rintro ⟨h, _⟩; omega
    have ml : m (x.length - 1) = 0 := by
      apply Finset.sum_eq_zero; intro c _; rw [hW]; dsimp only; rw [dif_neg, zero_mul]; rintro ⟨h, h', _⟩; omega
    have hm : (fun j : Fin (x.length - 2) => m (j.1 + 1)) = X.mulVec (fun c => f c.1) := by
      funext j
      have hj := j.2
      show (∑ c ∈ range x.length, W (j.1 + 1) c * f c) = _
      rw [← Fin.sum_univ_eq_sum_range (fun c => W (j.1 + 1) c * f c)]
      show _ = ∑ c : Fin x.length, X j c * f c.1
      apply Finset.sum_congr rfl
      intro c _
      have hc : 1 ≤ j.1 + 1 ∧ j.1 + 1 - 1 < x.length - 2 ∧ c.1 < x.length := ⟨by omega, by omega, c.2⟩
      rw [hW]; dsimp only; rw [dif_pos hc]
      rfl
    have hk := k_row x m m0 ml ⟨i, by omega⟩
    rw [hm, Matrix.mulVec_mulVec, hX, Matrix.mul_nonsing_inv_cancel_left _ _ (isUnit_iff_ne_zero.2 (k_det hx)),
      d_apply] at hk
    exact hk.symm

/-! ## Cubic pieces -/

/-- The cubic with values `y0`, `y1` and second derivatives `m0`, `m1` at the ends of an interval. -/
noncomputable def piece (x0 x1 y0 y1 m0 m1 : K) : K[X] :=
  C y0 * (C (x1 / (x1 - x0)) - C (1 / (x1 - x0)) * X) + C y1 * (1 - (C (x1 / (x1 - x0)) - C (1 / (x1 - x0)) * X)) +
    C (m0 * (x1 - x0) ^ 2 / 6) * ((C (x1 / (x1 - x0)) - C (1 / (x1 - x0)) * X) ^ 3 - (C (x1 / (x1 - x0)) - C (1 / (x1 - x0)) * X)) +
    C (m1 * (x1 - x0) ^ 2 / 6) * ((1 - (C (x1 / (x1 - x0)) - C (1 / (x1 - x0)) * X)) ^ 3 - (1 - (C (x1 / (x1 - x0)) - C (1 / (x1 - x0)) * X)))

omit [LinearOrder K] [IsStrictOrderedRing K] in
theorem piece_degree (x0 x1 y0 y1 m0 m1 : K) : (piece x0 x1 y0 y1 m0 m1).natDegree ≤ 3 := by
  unfold piece; compute_degree

omit [LinearOrder K] [IsStrictOrderedRing K] in
theorem piece_eval (x0 x1 y0 y1 m0 m1 q : K) : (piece x0 x1 y0 y1 m0 m1).eval q =
    y0 * ((x1 - q) / (x1 - x0)) + y1 * (1 - (x1 - q) / (x1 - x0)) +
      m0 * (x1 - x0) ^ 2 / 6 * (((x1 - q) / (x1 - x0)) ^ 3 - (x1 - q) / (x1 - x0)) +
      m1 * (x1 - x0) ^ 2 / 6 * ((1 - (x1 - q) / (x1 - x0)) ^ 3 - (1 - (x1 - q) / (x1 - x0))) := by
  unfold piece
  simp only [eval_add, eval_sub, eval_mul, eval_pow, eval_C, eval_X, eval_one]
  ring

theorem piece_deriv (x0 x1 y0 y1 m0 m1 : K) (h : x0 < x1) :
    (derivative (piece x0 x1 y0 y1 m0 m1)).eval x0 = (y1 - y0) / (x1 - x0) - (x1 - x0) * (2 * m0 + m1) / 6 ∧
    (derivative (piece x0 x1 y0 y1 m0 m1)).eval x1 = (y1 - y0) / (x1 - x0) + (x1 - x0) * (m0 + 2 * m1) / 6 := by
  have hne : x1 - x0 ≠ 0 := by intro h'; linarith
  unfold piece
  constructor
  · simp [derivative_pow]
    field_simp
    ring
  · simp [derivative_pow]
    field_simp
    ring

theorem piece_deriv2 (x0 x1 y0 y1 m0 m1 : K) (h : x0 < x1) :
    (derivative (derivative (piece x0 x1 y0 y1 m0 m1))).eval x0 = m0 ∧
    (derivative (derivative (piece x0 x1 y0 y1 m0 m1))).eval x1 = m1 := by
  have hne : x1 - x0 ≠ 0 := by intro h'; linarith
  unfold piece
  constructor
  · simp [derivative_pow]
    field_simp
    ring
  · simp [derivative_pow]
    field_simp
    ring

/-- Any cubic: its end slopes from its end values and end curvatures. -/
theorem cubic_slopes (p : K[X]) (hp : p.natDegree ≤ 3) (x0 x1 : K) (h : x0 < x1) :
    (derivative p).eval x0 = (p.eval x1 - p.eval x0) / (x1 - x0) -
      (x1 - x0) * (2 * (derivative (derivative p)).eval x0 + (derivative (derivative p)).eval x1) / 6 ∧
    (derivative p).eval x1 = (p.eval x1 - p.eval x0) / (x1 - x0) +
      (x1 - x0) * ((derivative (derivative p)).eval x0 + 2 * (derivative (derivative p)).eval x1) / 6 := by
  have hne : x1 - x0 ≠ 0 := by intro h'; linarith
  have e := p.as_sum_range_C_mul_X_pow' (Nat.lt_succ_of_le hp)
  simp only [Finset.sum_range_succ, Finset.sum_range_zero, zero_add, pow_zero, mul_one, pow_one] at e
  rw [e]
  generalize p.coeff 0 = c0
  generalize p.coeff 1 = c1
  generalize p.coeff 2 = c2
  generalize p.coeff 3 = c3
  constructor
  · simp [derivative_pow]
    field_simp
    ring
  · simp [derivative_pow]
    field_simp
    ring

/-! ## The interval of a query -/

omit [IsStrictOrderedRing K] in
theorem searchLeft_split : ∀ (x : List K) (q : K), x.Pairwise (· < ·) → searchLeft x q ≤ x.length ∧
    (∀ j, j < searchLeft x q → Bayesn.val x j < q) ∧ (∀ j, searchLeft x q ≤ j → j < x.length → q ≤ Bayesn.val x j)
  | [], q, _ => ⟨by simp [searchLeft], fun j hj => by simp [searchLeft] at hj, fun j _ hj => by simp at hj⟩
  | a :: x, q, h => by
    obtain ⟨h1, h2⟩ := List.pairwise_cons.1 h
    obtain ⟨i0, i1, i2⟩ := searchLeft_split x q h2
    by_cases ha : a < q
    · have e : searchLeft (a :: x) q = searchLeft x q + 1 := by simp [searchLeft, List.takeWhile, ha]
      rw [e]
      refine ⟨by simpa using i0, ?_, ?_⟩
      · intro j hj
        cases j with
        | zero => exact ha
        | succ j => exact i1 j (by omega)
      · intro j hj hl
        cases j with
        | zero => omega
        | succ j => exact i2 j (by omega) (by simpa using hl)
    · have e : searchLeft (a :: x) q = 0 := by simp [searchLeft, List.takeWhile, ha]
      rw [e]
      refine ⟨by simp, fun j hj => absurd hj (by omega), ?_⟩
      intro j _ hl
      cases j with
      | zero => exact not_lt.1 ha
      | succ j =>
        have hj : j < x.length := by simpa using hl
        have := h1 x[j] (List.getElem_mem hj)
        show q ≤ x.getD j 0
        rw [List.getD_eq_getElem?_getD, List.getElem?_eq_getElem hj]
        exact (not_lt.1 ha).trans this.le

/-- Every piece that serves a query is the code's interval, or its right neighbour with the query on the common knot. -/
theorem cell_piece {x : List K} (hx : x.Pairwise (· < ·)) {i : Nat} {q : K}
    (h : SplineSpec.InPiece x.length (fun i => x.getD i 0) i q) :
    i = cell x q ∨ (i = cell x q + 1 ∧ q = x.getD i 0) := by
  obtain ⟨h1, h2, h3⟩ := h
  obtain ⟨s0, s1, s2⟩ := searchLeft_split x q hx
  unfold cell
  by_cases hq : q = x.getD i 0
  · -- on a knot
    have up : searchLeft x q ≤ i := by
      by_contra hlt
      have := s1 i (by omega)
      rw [hq] at this
      exact lt_irrefl _ this
    have lo : i ≤ searchLeft x q := by
      by_contra hlt
      have := s2 (searchLeft x q) le_rfl (by omega)
      have lt : Bayesn.val x (searchLeft x q) < Bayesn.val x i := by
        have := List.pairwise_iff_getElem.1 hx (searchLeft x q) i (by omega) (by omega) (by omega)
        unfold Bayesn.val
        rw [List.getD_eq_getElem?_getD, List.getD_eq_getElem?_getD, List.getElem?_eq_getElem (show searchLeft x q < x.length by omega),
          List.getElem?_eq_getElem (show i < x.length by omega)]
        simpa using this
      have e : Bayesn.val x i = q := hq.symm
      rw [e] at lt
      exact absurd this (not_le.2 lt)
    have hs : searchLeft x q = i := le_antisymm up lo
    rw [hs]
    rcases Nat.eq_zero_or_pos i with h0 | h0
    · left; omega
    · right; exact ⟨by omega, hq⟩
  · left
    rcases h2 with h0 | hle
    · subst h0
      rcases h3 with h3 | h3
      · have : x.length - 2 = 0 := by omega
        rw [this]; omega
      · have : searchLeft x q ≤ 1 := by
          by_contra hlt
          have := s1 1 (by omega)
          exact absurd h3 (not_le.2 this)
        omega
    · have lt : Bayesn.val x i < q := lt_of_le_of_ne hle (fun h => hq h.symm)
      have lo : i + 1 ≤ searchLeft x q := by
        by_contra hlt
        have := s2 i (by omega) (by omega)
        exact absurd this (not_le.2 lt)
      rcases h3 with h3 | h3
      · omega
      · have : searchLeft x q ≤ i + 1 := by
          by_contra hlt
          have := s1 (i + 1) (by omega)
          exact absurd h3 (not_le.2 this)
        omega

theorem cell_lt {x : List K} (hn : 2 ≤ x.length) (q : K) : cell x q + 1 < x.length := by unfold cell; omega

/-! ## The tridiagonal solver -/

theorem forward_mu {x : List K} (hx : x.Pairwise (· < ·)) (y : List K) : ∀ i, i + 1 < x.length →
    0 ≤ (forward x y i).1 ∧ (forward x y i).1 < 1
  | 0, _ => ⟨le_rfl, zero_lt_one⟩
  | i + 1, hi => by
    have ih := forward_mu hx y i (by omega)
    have p1 := gap_pos hx (show i + 1 < x.length by omega)
    have p2 := gap_pos hx hi
    have e : Bayesn.val x (i + 2) - Bayesn.val x i = gap x i + gap x (i + 1) := by unfold gap; ring
    have hw : gap x i + 2 * gap x (i + 1) < 2 * (Bayesn.val x (i + 2) - Bayesn.val x i) - gap x i * (forward x y i).1 := by
      rw [e]; nlinarith [mul_lt_mul_of_pos_left ih.2 p1]
    unfold forward
    dsimp only
    constructor
    · apply div_nonneg p2.le; linarith
    · rw [div_lt_one (by linarith)]; linarith

theorem wave_ne {x : List K} (hx : x.Pairwise (· < ·)) (y : List K) (i : Nat) (hi : i + 2 < x.length) :
    2 * (Bayesn.val x (i + 2) - Bayesn.val x i) - gap x i * (forward x y i).1 ≠ 0 := by
  have ih := forward_mu hx y i (by omega)
  have p1 := gap_pos hx (show i + 1 < x.length by omega)
  have p2 := gap_pos hx (show i + 1 + 1 < x.length by omega)
  have e : Bayesn.val x (i + 2) - Bayesn.val x i = gap x i + gap x (i + 1) := by unfold gap; ring
  rw [e]
  intro h
  nlinarith [mul_lt_mul_of_pos_left ih.2 p1]

omit [IsStrictOrderedRing K] in
theorem second_step (x y : List K) (j : Nat) (hj : j + 1 < x.length) :
    secondDeriv x y j = (forward x y j).2 - (forward x y j).1 * secondDeriv x y (j + 1) := by
  unfold secondDeriv
  rw [if_neg (Nat.succ_ne_zero j)]
  by_cases h : j = 0
  · subst h
    rw [if_pos rfl]
    show (0 : K) = 0 - 0 * _
    ring
  · rw [if_neg h]
    obtain ⟨k, hk⟩ : ∃ k, x.length - 1 - j = k + 1 := ⟨x.length - 2 - j, by omega⟩
    have e1 : x.length - 1 - (j + 1) = k := by omega
    have e2 : x.length - 2 - k = j := by omega
    rw [hk, e1]
    show (forward x y (x.length - 2 - k)).2 - (forward x y (x.length - 2 - k)).1 * backward x y k = _
    rw [e2]

/-- The solver solves its tridiagonal system. -/
theorem second_system {x : List K} (hx : x.Pairwise (· < ·)) (y : List K) (i : Nat) (hi : i + 2 < x.length) :
    gap x i * secondDeriv x y i + 2 * (gap x i + gap x (i + 1)) * secondDeriv x y (i + 1) +
      gap x (i + 1) * secondDeriv x y (i + 2) =
      3 * ((Bayesn.val y (i + 2) - Bayesn.val y (i + 1)) / gap x (i + 1) - (Bayesn.val y (i + 1) - Bayesn.val y i) / gap x i) := by
  have s0 := second_step x y i (by omega)
  have s1 := second_step x y (i + 1) (by omega)
  have hw := wave_ne hx y i hi
  have e : Bayesn.val x (i + 2) - Bayesn.val x i = gap x i + gap x (i + 1) := by unfold gap; ring
  have f1 : (forward x y (i + 1)).1 = gap x (i + 1) / (2 * (Bayesn.val x (i + 2) - Bayesn.val x i) - gap x i * (forward x y i).1) := rfl
  have f2 : (forward x y (i + 1)).2 = (alpha x y (i + 1) - gap x i * (forward x y i).2) /
      (2 * (Bayesn.val x (i + 2) - Bayesn.val x i) - gap x i * (forward x y i).1) := rfl
  rw [e] at hw f1 f2
  rw [f1, f2] at s1
  have s1' : (2 * (gap x i + gap x (i + 1)) - gap x i * (forward x y i).1) * secondDeriv x y (i + 1) =
      alpha x y (i + 1) - gap x i * (forward x y i).2 - gap x (i + 1) * secondDeriv x y (i + 2) := by
    rw [s1]; field_simp
  have ha : alpha x y (i + 1) = 3 * ((Bayesn.val y (i + 2) - Bayesn.val y (i + 1)) / gap x (i + 1) - (Bayesn.val y (i + 1) - Bayesn.val y i) / gap x i) := by
    unfold alpha
    rw [Nat.add_sub_cancel]
    ring
  rw [← ha, s0]
  linear_combination s1'

theorem second_ends (x y : List K) : secondDeriv x y 0 = 0 ∧ secondDeriv x y (x.length - 1) = 0 := by
  constructor
  · rfl
  · unfold secondDeriv
    split
    · rfl
    · rw [Nat.sub_self]; rfl

end LCL.BayesnLemmas
