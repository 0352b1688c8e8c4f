import Verif.Lemmas.Bayesn

/-!
# C74, C75: the splines of the BayeSN model
-/

namespace LCL
open Bayesn BayesnLemmas SplineSpec Polynomial
variable {K : Type} [Field K] [LinearOrder K] [IsStrictOrderedRing K]

omit [LinearOrder K] [IsStrictOrderedRing K] in
theorem list_range_sum (n : Nat) (f : Nat → K) : ((List.range n).map f).sum = ∑ c ∈ Finset.range n, f c := by
  induction n with
  | zero => simp
  | succ n ih => rw [List.range_succ, List.map_append, List.sum_append, ih, Finset.sum_range_succ]; simp

omit [IsStrictOrderedRing K] in
/-- The weighted sum of the knot values is the cubic piece with the curvatures `W y`. -/
theorem basis_sum {x : List K} (hn : 2 ≤ x.length) (W : Nat → Nat → K) (f : Nat → K) (q : K) :
    (∑ c ∈ Finset.range x.length, basisRow x W q c * f c) =
      (piece (Bayesn.val x (cell x q)) (Bayesn.val x (cell x q + 1)) (f (cell x q)) (f (cell x q + 1))
        (∑ c ∈ Finset.range x.length, W (cell x q) c * f c) (∑ c ∈ Finset.range x.length, W (cell x q + 1) c * f c)).eval q := by
  have hc : cell x q + 1 < x.length := by unfold cell; omega
  rw [piece_eval]
  unfold basisRow
  dsimp only
  generalize cell x q = i at *
  generalize hh : Bayesn.val x (i + 1) - Bayesn.val x i = h
  generalize (Bayesn.val x (i + 1) - q) / h = a
  have key : ∀ c ∈ Finset.range x.length, ((if c = i + 1 then 1 - a else if c = i then a else 0) +
      ((a ^ 3 - a) * h ^ 2 / 6 * W i c + ((1 - a) ^ 3 - (1 - a)) * h ^ 2 / 6 * W (i + 1) c)) * f c =
      (if i = c then a * f c else 0) + (if i + 1 = c then (1 - a) * f c else 0) +
        ((a ^ 3 - a) * h ^ 2 / 6 * (W i c * f c) + ((1 - a) ^ 3 - (1 - a)) * h ^ 2 / 6 * (W (i + 1) c * f c)) := by
    intro c _
    by_cases h1 : c = i + 1
    · subst h1; simp; ring
    · by_cases h2 : c = i
      · subst h2; simp; ring
      · have a1 : ¬ i = c := fun h => h2 h.symm
        have a2 : ¬ i + 1 = c := fun h => h1 h.symm
        simp [h1, h2, a1, a2]; ring
  rw [Finset.sum_congr rfl key, Finset.sum_add_distrib, Finset.sum_add_distrib, Finset.sum_add_distrib, Finset.sum_ite_eq,
    Finset.sum_ite_eq, if_pos (Finset.mem_range.2 (by omega)), if_pos (Finset.mem_range.2 hc), ← Finset.mul_sum, ← Finset.mul_sum]
  ring

/-- C74: for strictly increasing knots the basis matrix is always computed, and multiplying it with any
knot values gives, at every query point, the natural cubic spline through those values (the end pieces
continue outside the knots). -/
theorem C74_natural_spline (x : List K) (hx : x.Pairwise (· < ·)) (hn : 2 ≤ x.length) (y : List K) :
    ∃ p : Nat → K[X], NaturalSpline x.length (fun i => x.getD i 0) (fun i => y.getD i 0) p ∧
      ∀ (q : K) (i : Nat), InPiece x.length (fun i => x.getD i 0) i q → splineAt x y q = .ok ((p i).eval q) := by
  obtain ⟨W, hW, w0, wl, weq⟩ := invkd_ok hx hn
  let f : Nat → K := fun i => y.getD i 0
  let m : Nat → K := fun r => ∑ c ∈ Finset.range x.length, W r c * f c
  have m0 : m 0 = 0 := Finset.sum_eq_zero fun c _ => by rw [w0, zero_mul]
  have ml : m (x.length - 1) = 0 := Finset.sum_eq_zero fun c _ => by rw [wl, zero_mul]
  have meq := weq f
  have lt : ∀ i, i + 1 < x.length → Bayesn.val x i < Bayesn.val x (i + 1) := fun i hi => by
    have := gap_pos hx hi; unfold gap at this; linarith
  have nat : NaturalSpline x.length (fun i => x.getD i 0) (fun i => y.getD i 0)
      (fun i => piece (Bayesn.val x i) (Bayesn.val x (i + 1)) (f i) (f (i + 1)) (m i) (m (i + 1))) := by
    constructor
    · intro i _; exact piece_degree _ _ _ _ _ _
    · intro i hi
      have hne : Bayesn.val x (i + 1) - Bayesn.val x i ≠ 0 := (gap_pos hx hi).ne'
      show (piece _ _ _ _ _ _).eval (Bayesn.val x i) = f i
      rw [piece_eval, div_self hne]; ring
    · intro i hi
      show (piece _ _ _ _ _ _).eval (Bayesn.val x (i + 1)) = f (i + 1)
      rw [piece_eval, sub_self, zero_div]; ring
    · intro i hi
      show (derivative (piece _ _ _ _ _ _)).eval (Bayesn.val x (i + 1)) = (derivative (piece _ _ _ _ _ _)).eval (Bayesn.val x (i + 1))
      rw [(piece_deriv _ _ _ _ _ _ (lt i (by omega))).2, (piece_deriv _ _ _ _ _ _ (lt (i + 1) hi)).1]
      have := meq i hi
      unfold gap at this
      linear_combination this
    · intro i hi
      show (derivative (derivative (piece _ _ _ _ _ _))).eval (Bayesn.val x (i + 1)) =
        (derivative (derivative (piece _ _ _ _ _ _))).eval (Bayesn.val x (i + 1))
      rw [(piece_deriv2 _ _ _ _ _ _ (lt i (by omega))).2, (piece_deriv2 _ _ _ _ _ _ (lt (i + 1) hi)).1]
    · intro _
      show (derivative (derivative (piece _ _ _ _ _ _))).eval (Bayesn.val x 0) = 0
      rw [(piece_deriv2 _ _ _ _ _ _ (lt 0 (by omega))).1, m0]
    · intro _
      have e : x.length - 1 = x.length - 2 + 1 := by omega
      show (derivative (derivative (piece _ _ _ _ _ _))).eval (Bayesn.val x (x.length - 1)) = 0
      rw [e, (piece_deriv2 _ _ _ _ _ _ (lt (x.length - 2) (by omega))).2, ← e, ml]
  refine ⟨_, nat, ?_⟩
  intro q i hi
  have ev : splineAt x y q = .ok ((piece (Bayesn.val x (cell x q)) (Bayesn.val x (cell x q + 1)) (f (cell x q)) (f (cell x q + 1))
      (m (cell x q)) (m (cell x q + 1))).eval q) := by
    unfold splineAt
    rw [hW]
    dsimp only
    rw [list_range_sum]
    exact congrArg Except.ok (basis_sum hn W f q)
  rw [ev]
  rcases cell_piece hx hi with h | ⟨h1, h2⟩
  · rw [h]
  · have l := nat.left i hi.1
    have r := nat.right (cell x q) (by have := hi.1; omega)
    rw [← h1, ← h2] at r
    rw [← h2] at l
    rw [← h1]
    exact congrArg Except.ok (r.trans l.symm)

/-- Non-vacuity: three knots with a bend in the middle; the spline is evaluated inside a cell. -/
example : [(0 : ℚ), 1, 3].Pairwise (· < ·) ∧ InPiece 3 (fun i => [(0 : ℚ), 1, 3].getD i 0) 1 2 := by
  refine ⟨by decide, by omega, Or.inr ?_, Or.inl rfl⟩
  decide +kernel

/-- C74: at a knot the value is the given one. -/
theorem C74_knots (x : List K) (hx : x.Pairwise (· < ·)) (hn : 2 ≤ x.length) (y : List K) (k : Nat) (hk : k < x.length) :
    splineAt x y (x.getD k 0) = .ok (y.getD k 0) := by
  obtain ⟨p, hp, hv⟩ := C74_natural_spline x hx hn y
  have mono : ∀ i j, i < j → j < x.length → x.getD i 0 < x.getD j 0 := by
    intro i j hij hj
    have := List.pairwise_iff_getElem.1 hx i j (by omega) hj hij
    rw [List.getD_eq_getElem?_getD, List.getD_eq_getElem?_getD, List.getElem?_eq_getElem hj, List.getElem?_eq_getElem (show i < x.length by omega)]
    simpa using this
  by_cases h : k + 1 < x.length
  · rw [hv _ k ⟨h, Or.inr le_rfl, Or.inr (mono k (k + 1) (by omega) h).le⟩, hp.left k h]
  · obtain ⟨j, rfl⟩ : ∃ j, k = j + 1 := ⟨k - 1, by omega⟩
    rw [hv _ j ⟨hk, Or.inr (mono j (j + 1) (by omega) hk).le, Or.inr le_rfl⟩, hp.right j hk]

/-- C74: straight lines are reproduced everywhere, also outside the knots. -/
theorem C74_lines (x : List K) (hx : x.Pairwise (· < ·)) (hn : 2 ≤ x.length) (α β q : K) :
    splineAt x (x.map fun t => α + β * t) q = .ok (α + β * q) := by
  obtain ⟨W, hW, w0, wl, weq⟩ := invkd_ok hx hn
  let f : Nat → K := fun i => (x.map fun t => α + β * t).getD i 0
  have hf : ∀ i, i < x.length → f i = α + β * Bayesn.val x i := by
    intro i hi
    show (x.map fun t => α + β * t).getD i 0 = α + β * x.getD i 0
    rw [List.getD_eq_getElem?_getD, List.getD_eq_getElem?_getD, List.getElem?_map, List.getElem?_eq_getElem hi]
    rfl
  let m : Nat → K := fun r => ∑ c ∈ Finset.range x.length, W r c * f c
  have m0 : m 0 = 0 := Finset.sum_eq_zero fun c _ => by rw [w0, zero_mul]
  have ml : m (x.length - 1) = 0 := Finset.sum_eq_zero fun c _ => by rw [wl, zero_mul]
  have hm := tri_zero x.length (gap x) m (fun i hi => gap_pos hx hi) m0 ml (fun i hi => by
    have e := weq f i hi
    have g1 := (gap_pos hx (show i + 1 < x.length by omega)).ne'
    have g2 := (gap_pos hx (show i + 1 + 1 < x.length by omega)).ne'
    rw [hf i (by omega), hf (i + 1) (by omega), hf (i + 2) (by omega)] at e
    have r0 : (α + β * Bayesn.val x (i + 2) - (α + β * Bayesn.val x (i + 1))) / gap x (i + 1) -
        (α + β * Bayesn.val x (i + 1) - (α + β * Bayesn.val x i)) / gap x i = 0 := by
      have e1 : α + β * Bayesn.val x (i + 2) - (α + β * Bayesn.val x (i + 1)) = β * gap x (i + 1) := by unfold gap; ring
      have e2 : α + β * Bayesn.val x (i + 1) - (α + β * Bayesn.val x i) = β * gap x i := by unfold gap; ring
      rw [e1, e2, mul_div_assoc, mul_div_assoc, div_self g1, div_self g2, sub_self]
    rw [r0] at e
    show gap x i * m i + 2 * (gap x i + gap x (i + 1)) * m (i + 1) + gap x (i + 1) * m (i + 2) = 0
    linear_combination 6 * e)
  have hc := cell_lt hn q
  have hne : Bayesn.val x (cell x q + 1) - Bayesn.val x (cell x q) ≠ 0 := (gap_pos hx hc).ne'
  unfold splineAt
  rw [hW]
  dsimp only
  rw [list_range_sum]
  refine congrArg Except.ok ((basis_sum hn W f q).trans ?_)
  have a1 : (∑ c ∈ Finset.range x.length, W (cell x q) c * f c) = 0 := hm _ (by omega)
  have a2 : (∑ c ∈ Finset.range x.length, W (cell x q + 1) c * f c) = 0 := hm _ hc
  rw [a1, a2, piece_eval, hf _ (by omega), hf _ hc]
  field_simp
  ring

/-- C74: the warping surface takes the given coefficient at every pair of knots. -/
theorem C74_surface (l tau : List K) (hl : l.Pairwise (· < ·)) (ht : tau.Pairwise (· < ·)) (hln : 2 ≤ l.length) (htn : 2 ≤ tau.length)
    (w : List (List K)) (i j : Nat) (hi : i < l.length) (hj : j < tau.length) :
    surface l tau w (l.getD i 0) (tau.getD j 0) = .ok ((w.getD i []).getD j 0) := by
  obtain ⟨wl, el, -⟩ := invkd_ok hl hln
  obtain ⟨wt, et, -⟩ := invkd_ok ht htn
  have inner : ∀ a, ((List.range tau.length).map fun b => basisRow tau wt (tau.getD j 0) b * Bayesn.val (w.getD a []) b).sum = (w.getD a []).getD j 0 := by
    intro a
    have := C74_knots tau ht htn (w.getD a []) j hj
    unfold splineAt at this
    rw [et] at this
    dsimp only at this
    injection this
  have outer := C74_knots l hl hln ((List.range l.length).map fun a => (w.getD a []).getD j 0) i hi
  unfold splineAt at outer
  rw [el] at outer
  dsimp only at outer
  unfold surface
  rw [el]
  dsimp only
  rw [et]
  dsimp only
  rw [List.getD_eq_getElem?_getD (l := (List.range l.length).map fun a => (w.getD a []).getD j 0), List.getElem?_map, List.getElem?_range hi] at outer
  have e : (List.range l.length).map (fun a => basisRow l wl (l.getD i 0) a * ((List.range tau.length).map fun b => basisRow tau wt (tau.getD j 0) b * Bayesn.val (w.getD a []) b).sum) =
      (List.range l.length).map fun c => basisRow l wl (l.getD i 0) c * Bayesn.val ((List.range l.length).map fun a => (w.getD a []).getD j 0) c := by
    apply List.map_congr_left
    intro a ha
    have ha' := List.mem_range.1 ha
    rw [inner a]
    unfold Bayesn.val
    rw [List.getD_eq_getElem?_getD (l := (List.range l.length).map fun a => (w.getD a []).getD j 0), List.getElem?_map, List.getElem?_range ha']
    rfl
  rw [e]
  exact outer

/-- C74: fewer than two knots are rejected. -/
theorem C74_rejects (x y : List K) (q : K) (h : x.length < 2) : splineAt x y q = .error .valueError := by
  unfold splineAt computeInvkd
  rw [if_pos h]

/-! ## C75 -/

/-- C75 (exact): at a grid point the template differs from the tabulated flux by curvature terms that vanish for cells of width one. -/
theorem template_grid (x y : List K) (hx : x.Pairwise (· < ·)) (hy : y.Pairwise (· < ·)) (z : List (List K)) (i j : Nat) (hi : i + 1 < x.length) (hj : j + 1 < y.length) :
    template x y z (x.getD (i + 1) 0) (y.getD (j + 1) 0) = (z.getD (i + 1) []).getD (j + 1) 0 +
      mx x z (i + 1) (j + 1) * (gap x i - gap x i ^ 2) / 6 + my y z i (j + 1) * (gap y j - gap y j ^ 2) / 6 := by
  have knot : ∀ (v : List K), v.Pairwise (· < ·) → ∀ k, k + 1 < v.length → cell v (v.getD (k + 1) 0) = k := by
    intro v hv k hk
    obtain ⟨s0, s1, s2⟩ := searchLeft_split v (v.getD (k + 1) 0) hv
    have up : searchLeft v (v.getD (k + 1) 0) ≤ k + 1 := by
      by_contra hlt
      exact lt_irrefl _ (s1 (k + 1) (by omega))
    have lo : k < searchLeft v (v.getD (k + 1) 0) := by
      by_contra hlt
      have := s2 k (by omega) (by omega)
      have g := gap_pos hv hk
      unfold gap Bayesn.val at g
      unfold Bayesn.val at this
      linarith
    unfold cell
    omega
  unfold template
  dsimp only
  rw [knot x hx i hi, knot y hy j hj]
  have e1 : Bayesn.val x (i + 1) - x.getD (i + 1) 0 = 0 := sub_self _
  have e2 : Bayesn.val y (j + 1) - y.getD (j + 1) 0 = 0 := sub_self _
  rw [e1, e2, zero_div, zero_div]
  unfold blend
  have e3 : Bayesn.val (z.getD (i + 1) []) (j + 1) = (z.getD (i + 1) []).getD (j + 1) 0 := rfl
  rw [← e3]
  ring

/-- C75 (partial: cells of width one only): the template passes through its tabulated fluxes. -/
theorem C75_grid_partial (x y : List K) (hx : x.Pairwise (· < ·)) (hy : y.Pairwise (· < ·)) (z : List (List K)) (i j : Nat) (hi : i + 1 < x.length) (hj : j + 1 < y.length)
    (ux : x.getD (i + 1) 0 - x.getD i 0 = 1) (uy : y.getD (j + 1) 0 - y.getD j 0 = 1) :
    template x y z (x.getD (i + 1) 0) (y.getD (j + 1) 0) = (z.getD (i + 1) []).getD (j + 1) 0 := by
  rw [template_grid x y hx hy z i j hi hj]
  have g1 : gap x i = 1 := ux
  have g2 : gap y j = 1 := uy
  rw [g1, g2]
  ring

/-- C75 fails in general: on a wavelength axis of step two, with a flux peak in the middle, the template
does not return the tabulated flux at a grid point. -/
theorem C75_grid_counterexample :
    template [(0 : ℚ), 1, 2] [0, 2, 4] [[0, 1, 0], [0, 1, 0], [0, 1, 0]] 1 2 = 9 / 8 := by
  decide +kernel

/-- C75: the numbers used as second derivatives are exactly half the second derivatives of the natural
spline through the data, at every knot. -/
theorem C75_half_curvature_counterexample (x y : List K) (hx : x.Pairwise (· < ·)) (hn : 2 ≤ x.length) (p : Nat → K[X])
    (hp : NaturalSpline x.length (fun i => x.getD i 0) (fun i => y.getD i 0) p) (i : Nat) (hi : i + 1 < x.length) :
    secondDeriv x y i = (derivative (derivative (p i))).eval (x.getD i 0) / 2 := by
  let d : Nat → K := fun i => if i + 1 < x.length then (derivative (derivative (p i))).eval (Bayesn.val x i)
    else (derivative (derivative (p (i - 1)))).eval (Bayesn.val x i)
  have lt : ∀ i, i + 1 < x.length → Bayesn.val x i < Bayesn.val x (i + 1) := fun i hi => by
    have := gap_pos hx hi; unfold gap at this; linarith
  -- second derivative at the right end of piece `i`
  have hr : ∀ i, i + 1 < x.length → (derivative (derivative (p i))).eval (Bayesn.val x (i + 1)) = d (i + 1) := by
    intro i hi
    show _ = if i + 1 + 1 < x.length then _ else _
    by_cases h : i + 1 + 1 < x.length
    · rw [if_pos h]; exact hp.bend i h
    · rw [if_neg h]; rfl
  have hl : ∀ i, i + 1 < x.length → (derivative (derivative (p i))).eval (Bayesn.val x i) = d i := by
    intro i hi; show _ = if i + 1 < x.length then _ else _; rw [if_pos hi]
  have d0 : d 0 = 0 := by rw [← hl 0 (by omega)]; exact hp.first hn
  have dl : d (x.length - 1) = 0 := by
    have e : x.length - 1 = x.length - 2 + 1 := by omega
    have := hp.last hn
    rw [e, ← hr (x.length - 2) (by omega), ← e]
    exact this
  have deq : ∀ i, i + 2 < x.length → gap x i * d i + 2 * (gap x i + gap x (i + 1)) * d (i + 1) + gap x (i + 1) * d (i + 2) =
      6 * ((Bayesn.val y (i + 2) - Bayesn.val y (i + 1)) / gap x (i + 1) - (Bayesn.val y (i + 1) - Bayesn.val y i) / gap x i) := by
    intro i hi
    have c1 := (cubic_slopes (p i) (hp.cubic i (by omega)) _ _ (lt i (by omega))).2
    have c2 := (cubic_slopes (p (i + 1)) (hp.cubic (i + 1) hi) _ _ (lt (i + 1) hi)).1
    have s : (derivative (p i)).eval (Bayesn.val x (i + 1)) = (derivative (p (i + 1))).eval (Bayesn.val x (i + 1)) := hp.slope i hi
    have v1 : (p i).eval (Bayesn.val x i) = Bayesn.val y i := hp.left i (by omega)
    have v2 : (p i).eval (Bayesn.val x (i + 1)) = Bayesn.val y (i + 1) := hp.right i (by omega)
    have v3 : (p (i + 1)).eval (Bayesn.val x (i + 1)) = Bayesn.val y (i + 1) := hp.left (i + 1) hi
    have v4 : (p (i + 1)).eval (Bayesn.val x (i + 1 + 1)) = Bayesn.val y (i + 1 + 1) := hp.right (i + 1) hi
    rw [hl i (by omega), hr i (by omega), v1, v2] at c1
    rw [hl (i + 1) hi, hr (i + 1) hi, v3, v4] at c2
    rw [c1, c2] at s
    unfold gap
    linear_combination 6 * s
  have z := tri_zero x.length (gap x) (fun i => d i - 2 * secondDeriv x y i) (fun i hi => gap_pos hx hi)
    (by show d 0 - 2 * secondDeriv x y 0 = 0; rw [d0, (second_ends x y).1]; ring)
    (by show d (x.length - 1) - 2 * secondDeriv x y (x.length - 1) = 0; rw [dl, (second_ends x y).2]; ring)
    (fun i hi => by
      have a := deq i hi
      have b := second_system hx y i hi
      linear_combination a - 2 * b) i (by omega)
  have e : (derivative (derivative (p i))).eval (x.getD i 0) = d i := hl i hi
  rw [e]
  linear_combination -z / 2

/-- Non-vacuity, and the two numbers really differ: a peak between three knots has curvature -3. -/
example : (∃ p, NaturalSpline 3 (fun i => [(0 : ℚ), 1, 2].getD i 0) (fun i => [(0 : ℚ), 1, 0].getD i 0) p) ∧
    secondDeriv [(0 : ℚ), 1, 2] [0, 1, 0] 1 = -3 / 2 := by
  refine ⟨?_, by decide +kernel⟩
  obtain ⟨p, hp, -⟩ := C74_natural_spline [(0 : ℚ), 1, 2] (by decide) (by decide) [(0 : ℚ), 1, 0]
  exact ⟨p, hp⟩

/-- C75: the same on the grid of the template: the curvature used at a grid point along each axis is half that of the natural spline through the tabulated fluxes of its column, or of its row. -/
theorem C75_axes_counterexample (x y : List K) (hx : x.Pairwise (· < ·)) (hy : y.Pairwise (· < ·)) (hnx : 2 ≤ x.length) (hny : 2 ≤ y.length) (z : List (List K)) (i j : Nat)
    (hi : i + 1 < x.length) (hj : j + 1 < y.length) (p q : Nat → K[X])
    (hp : NaturalSpline x.length (fun k => x.getD k 0) (fun k => (z.getD k []).getD j 0) p)
    (hq : NaturalSpline y.length (fun k => y.getD k 0) (fun k => (z.getD i []).getD k 0) q) :
    mx x z i j = (derivative (derivative (p i))).eval (x.getD i 0) / 2 ∧ my y z i j = (derivative (derivative (q j))).eval (y.getD j 0) / 2 := by
  refine ⟨?_, C75_half_curvature_counterexample y _ hy hny q hq j hj⟩
  refine C75_half_curvature_counterexample x _ hx hnx p ?_ i hi
  have e : ∀ k, k < x.length → ((List.range x.length).map fun k => Bayesn.val (z.getD k []) j).getD k 0 = (z.getD k []).getD j 0 := by
    intro k hk
    rw [List.getD_eq_getElem?_getD, List.getElem?_map, List.getElem?_range hk]
    rfl
  refine ⟨hp.cubic, ?_, ?_, hp.slope, hp.bend, hp.first, hp.last⟩
  · intro k hk
    rw [hp.left k hk]
    exact (e k (by omega)).symm
  · intro k hk
    rw [hp.right k hk]
    exact (e (k + 1) hk).symm

end LCL
