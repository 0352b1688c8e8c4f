import Verif.Model.Passband
import Verif.Spec.Passband

/-! # Lemmas about trapezoids, grids and the passband pipeline -/

namespace LCL.PassbandLemmas
open LCL LCL.PassbandSpec
variable {K : Type} [Field K] [LinearOrder K]

/-- The rectangular sum without half of the two end values. -/
def midSum (ys : List K) : K := ys.sum - 1 / 2 * (ys.headD 0 + ys.getLastD 0)

theorem trapezoid_eq_area (l : List (K × K)) : trapezoid l = area l := by
  unfold trapezoid
  induction l with
  | nil => rfl
  | cons p l ih =>
    cases l with
    | nil => rfl
    | cons q l =>
      simp only [trapCells, List.sum_cons, area, ih]
      rw [add_comm q.2]

variable [IsStrictOrderedRing K]

theorem midSum_cons (a b : K) (l : List K) : midSum (a :: b :: l) = (a + b) / 2 + midSum (b :: l) := by
  unfold midSum
  simp only [List.sum_cons, List.headD_cons, List.getLastD_cons]
  ring

theorem midSum_single (a : K) : midSum [a] = 0 := by
  unfold midSum; simp; ring

theorem midSum_nonneg : ∀ (l : List K), (∀ y ∈ l, 0 ≤ y) → 0 ≤ midSum l := by
  intro l
  induction l with
  | nil => intro _; simp [midSum]
  | cons a l ih =>
    intro h
    cases l with
    | nil => rw [midSum_single]
    | cons b l =>
      rw [midSum_cons]
      have h1 := h a (by simp)
      have h2 := h b (by simp)
      have h3 := ih (fun y hy => h y (List.mem_cons_of_mem _ hy))
      linarith

omit [LinearOrder K] [IsStrictOrderedRing K] in
theorem area_scale (c : K) : ∀ (l : List (K × K)), area (l.map fun p => (p.1, c * p.2)) = c * area l := by
  intro l
  induction l with
  | nil => simp [area]
  | cons p l ih =>
    cases l with
    | nil => simp [area]
    | cons q l =>
      simp only [List.map_cons, area] at ih ⊢
      rw [ih]; ring

/-- Steps between `a` and `b` bound the area by the rectangular sum. -/
theorem area_steps (a b : K) : ∀ (l : List (K × K)), (∀ p ∈ l, 0 ≤ p.2) →
    Steps (fun g => a ≤ g ∧ g ≤ b) (l.map (·.1)) →
    a * midSum (l.map (·.2)) ≤ area l ∧ area l ≤ b * midSum (l.map (·.2)) := by
  intro l
  induction l with
  | nil => intro _ _; simp [area, midSum]
  | cons p l ih =>
    intro hp hs
    cases l with
    | nil => simp [area, midSum_single]
    | cons q l =>
      simp only [List.map_cons, Steps, List.isChain_cons_cons] at hs ih ⊢
      obtain ⟨h1, h2⟩ := ih (fun r hr => hp r (List.mem_cons_of_mem _ hr)) hs.2
      rw [midSum_cons]
      simp only [area]
      have y0 := hp p (by simp)
      have y1 := hp q (by simp)
      constructor <;> nlinarith [hs.1.1, hs.1.2]

omit [LinearOrder K] [IsStrictOrderedRing K] in
theorem Steps_mono {P Q : K → Prop} (h : ∀ g, P g → Q g) {l : List K} (hs : Steps P l) : Steps Q l :=
  List.IsChain.imp (fun _ _ => h _) hs

theorem area_nonneg : ∀ (l : List (K × K)), (∀ p ∈ l, 0 ≤ p.2) → Steps (fun g => 0 ≤ g) (l.map (·.1)) → 0 ≤ area l := by
  intro l
  induction l with
  | nil => intro _ _; simp [area]
  | cons p l ih =>
    intro hp hs
    cases l with
    | nil => simp [area]
    | cons q l =>
      simp only [List.map_cons, Steps, List.isChain_cons_cons] at hs ih ⊢
      have := ih (fun r hr => hp r (List.mem_cons_of_mem _ hr)) hs.2
      simp only [area]
      have y0 := hp p (by simp)
      have y1 := hp q (by simp)
      have : 0 ≤ (q.1 - p.1) * (p.2 + q.2) / 2 := by
        apply div_nonneg (mul_nonneg hs.1 (by linarith)) (by norm_num)
      linarith

omit [LinearOrder K] [IsStrictOrderedRing K] in
/-- Area of pointwise combinations, on a common grid. -/
theorem area_linear (a b : K) : ∀ (xs fs gs : List K), fs.length = gs.length →
    area (List.zip xs (List.zipWith (fun f g => a * f + b * g) fs gs)) =
      a * area (List.zip xs fs) + b * area (List.zip xs gs) := by
  intro xs
  induction xs with
  | nil => intro fs gs _; simp [area]
  | cons x xs ih =>
    intro fs gs hl
    match fs, gs, hl with
    | [], [], _ => simp [area]
    | f :: fs, g :: gs, hl =>
      have := ih fs gs (by simpa using hl)
      match xs, fs, gs, hl with
      | [], _, _, _ => simp [area]
      | x1 :: xs, [], [], _ => simp [area]
      | x1 :: xs, f1 :: fs, g1 :: gs, hl =>
        simp only [List.zipWith_cons_cons, List.zip_cons_cons, area] at this ⊢
        rw [this]; ring

theorem midSum_linear (a b : K) : ∀ (fs gs : List K), fs.length = gs.length →
    midSum (List.zipWith (fun f g => a * f + b * g) fs gs) = a * midSum fs + b * midSum gs := by
  intro fs
  induction fs with
  | nil => intro gs hl; rw [List.length_eq_zero_iff.1 hl.symm]; simp [midSum]
  | cons f fs ih =>
    intro gs hl
    match fs, gs, hl with
    | [], [g], _ => simp [midSum_single]
    | f1 :: fs, g :: g1 :: gs, hl =>
      have := ih (g1 :: gs) (by simpa using hl)
      simp only [List.zipWith_cons_cons, midSum_cons] at this ⊢
      rw [this]; ring

/-! ## The pipeline -/

omit [IsStrictOrderedRing K] in
theorem validate_ok {t t' : List (K × K)} (h : Passband.validate t = .ok t') :
    t' = t ∧ Steps (fun g => 0 < g) (t.map (·.1)) := by
  unfold Passband.validate at h
  split at h
  · cases h
  · rename_i h1
    split at h
    · cases h
    · rename_i h2
      cases h
      refine ⟨rfl, ?_⟩
      generalize t.map (·.1) = l at h1 h2
      unfold Steps
      induction l with
      | nil => simp
      | cons a l ih =>
        cases l with
        | nil => simp
        | cons b l =>
          simp only [npDiff, List.any_cons, Bool.or_eq_true, decide_eq_true_eq, not_or] at h1 h2
          rw [List.isChain_cons_cons]
          exact ⟨lt_of_le_of_ne (not_lt.1 h1.1) (fun e => h2.1 e.symm), ih h1.2 h2.2⟩

theorem steps_pos_pairwise {l : List K} (h : Steps (fun g => 0 < g) l) : l.Pairwise (· < ·) := by
  rw [← List.isChain_iff_pairwise]
  exact h.imp (fun a b hab => by linarith)

omit [Field K] [IsStrictOrderedRing K] [LinearOrder K] in
theorem trim_infix {t : List (K × K)} (a b : Nat) : ((t.take a).drop b) <:+: t :=
  List.IsInfix.trans (List.drop_suffix b _).isInfix (List.take_prefix a t).isInfix

omit [IsStrictOrderedRing K] in
theorem trim_ok {t t' : List (K × K)} {q : Option K} (h : Passband.trim t q = .ok t') : t' <:+: t := by
  unfold Passband.trim at h
  split at h
  · cases h; exact List.infix_rfl
  · split at h
    · cases h; exact List.infix_rfl
    · split at h
      · cases h
      · split at h
        · cases h
        · split at h
          · cases h
          · split at h
            · cases h
            · cases h; exact trim_infix _ _

omit [LinearOrder K] [IsStrictOrderedRing K] in
theorem steps_infix {P : K → Prop} {t t' : List (K × K)} (h : t' <:+: t) (hs : Steps P (t.map (·.1))) :
    Steps P (t'.map (·.1)) :=
  List.IsChain.infix hs (h.map _)

omit [IsStrictOrderedRing K] in
theorem physical_infix {t t' : List (K × K)} (h : t' <:+: t) (hs : Physical t) : Physical t' :=
  fun p hp => hs p (h.mem hp)

theorem numer_nonneg {t : List (K × K)} (h : Physical t) : ∀ p ∈ t.map (fun p => (p.1, p.2 / p.1)), 0 ≤ p.2 := by
  intro p hp
  obtain ⟨q, hq, rfl⟩ := List.mem_map.1 hp
  exact div_nonneg (h q hq).2 (h q hq).1.le

/-- What a normalised table is. -/
theorem normalize_ok {t t' : List (K × K)} (h : Passband.normalize t = .ok t') :
    2 ≤ t.length ∧ t'.map (·.1) = t.map (·.1) ∧ area t' = 1 ∧
    ∃ den, den ≠ 0 ∧ den = area (t.map fun p => (p.1, p.2 / p.1)) ∧ t' = t.map (fun p => (p.1, p.2 / p.1 / den)) := by
  unfold Passband.normalize at h
  split at h
  · cases h
  · rename_i hl
    simp only at h
    split at h
    · cases h
    · rename_i hd
      rw [trapezoid_eq_area] at hd
      simp only [trapezoid_eq_area] at h
      cases h
      refine ⟨by omega, ?_, ?_, _, hd, rfl, ?_⟩
      · simp [Function.comp_def]
      · have := area_scale (area (t.map fun p => (p.1, p.2 / p.1)))⁻¹ (t.map fun p => (p.1, p.2 / p.1))
        rw [inv_mul_cancel₀ hd] at this
        rw [← this]
        congr 1
        apply List.map_congr_left
        intro p _
        rw [div_eq_inv_mul p.2]
      · rw [List.map_map]; rfl

/-- A physical increasing table normalises to a non-negative one. -/
theorem normalize_nonneg {t t' : List (K × K)} (h : Passband.normalize t = .ok t') (hp : Physical t)
    (hs : Steps (fun g => 0 < g) (t.map (·.1))) : ∀ p ∈ t', 0 < p.1 ∧ 0 ≤ p.2 := by
  obtain ⟨_, _, _, den, h1, h2, rfl⟩ := normalize_ok h
  have hden : 0 ≤ den := by
    rw [h2]
    exact area_nonneg _ (numer_nonneg hp) (by
      rw [List.map_map]; exact Steps_mono (fun g hg => le_of_lt hg) hs)
  intro p hm
  obtain ⟨q, hq, rfl⟩ := List.mem_map.1 hm
  exact ⟨(hp q hq).1, div_nonneg (div_nonneg (hp q hq).2 (hp q hq).1.le) hden⟩

/-! ## The interpolated grid -/

omit [IsStrictOrderedRing K] [LinearOrder K] in
theorem linspace_getElem? (lo hi : K) (n i : Nat) (h : i < n) :
    (linspace lo hi n)[i]? = some (lo + i * ((hi - lo) / ((n - 1 : Nat) : K))) := by
  unfold linspace
  rw [List.getElem?_map, List.getElem?_range h]; rfl

omit [IsStrictOrderedRing K] [LinearOrder K] in
theorem linspace_steps (lo hi : K) (n : Nat) : Steps (fun g => g = (hi - lo) / ((n - 1 : Nat) : K)) (linspace lo hi n) := by
  unfold Steps linspace
  rw [List.isChain_iff_getElem]
  intro i hi
  simp only [List.getElem_map, List.getElem_range]
  push_cast
  ring

theorem linspace_head (lo hi : K) (n : Nat) (h : 1 ≤ n) : (linspace lo hi n).head? = some lo := by
  rw [List.head?_eq_getElem?, linspace_getElem? lo hi n 0 (by omega)]; simp

theorem linspace_last (lo hi : K) (n : Nat) (h : 2 ≤ n) : (linspace lo hi n).getLast? = some hi := by
  have hl : (linspace lo hi n).length = n := by simp [linspace]
  rw [List.getLast?_eq_getElem?, hl, linspace_getElem? lo hi n _ (by omega)]
  have : ((n - 1 : Nat) : K) ≠ 0 := by
    rw [Nat.cast_ne_zero]; omega
  congr 1
  field_simp
  ring

theorem linspace_mem (lo hi : K) (hlh : lo ≤ hi) (n : Nat) (w : K) (h : w ∈ linspace lo hi n) : lo ≤ w ∧ w ≤ hi := by
  unfold linspace at h
  obtain ⟨i, hi', rfl⟩ := List.mem_map.1 h
  rw [List.mem_range] at hi'
  have h0 : 0 ≤ hi - lo := by linarith
  by_cases hn : n = 1
  · subst hn
    simp; exact hlh
  · have hp : (0 : K) < ((n - 1 : Nat) : K) := by rw [Nat.cast_pos]; omega
    have hle : (i : K) ≤ ((n - 1 : Nat) : K) := by rw [Nat.cast_le]; omega
    constructor
    · have : 0 ≤ (i : K) * ((hi - lo) / ((n - 1 : Nat) : K)) := mul_nonneg (Nat.cast_nonneg _) (div_nonneg h0 hp.le)
      linarith
    · have : (i : K) * ((hi - lo) / ((n - 1 : Nat) : K)) ≤ ((n - 1 : Nat) : K) * ((hi - lo) / ((n - 1 : Nat) : K)) :=
        mul_le_mul_of_nonneg_right hle (div_nonneg h0 hp.le)
      rw [mul_div_cancel₀ _ hp.ne'] at this
      linarith

end LCL.PassbandLemmas
