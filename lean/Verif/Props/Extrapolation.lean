import Verif.Lemmas.Physical
import Verif.Spec.Physical
import Mathlib.Tactic.NormNum
import Mathlib.Tactic.Positivity
import Mathlib.Analysis.SpecialFunctions.Exp

/-!
# Property C34 (wavelength extrapolation does not disturb the modelled range)
-/

namespace LCL.ExtrapolationProps
open LCL LCL.PhysSpec LCL.PhysLemmas
variable {K : Type} [Field K] [LinearOrder K] {V W R : Type}

theorem assignCols_ok {mask : List Bool} {a b c : Mat K} (h : assignCols mask a b = .ok c) :
    a.length = b.length ∧ (∀ row ∈ b, row.length = mask.count true) ∧ c = List.zipWith (scatter mask) a b := by
  unfold assignCols at h
  split at h
  · rename_i hc
    cases h
    exact ⟨hc.1, hc.2, rfl⟩
  · cases h

omit [Field K] [LinearOrder K] in
theorem zip_maps {p q : K → Bool} {l : List K} {x : Bool × Bool} (h : x ∈ (l.map p).zip (l.map q)) :
    ∃ w ∈ l, x = (p w, q w) := by
  induction l with
  | nil => simp at h
  | cons w l ih =>
    simp only [List.map_cons, List.zip_cons_cons, List.mem_cons] at h
    rcases h with rfl | h
    · exact ⟨w, by simp, rfl⟩
    · obtain ⟨w', hw', e⟩ := ih h
      exact ⟨w', List.mem_cons_of_mem _ hw', e⟩

/-- One assignment to masked columns, seen through the mask and through a disjoint mask. -/
theorem assign_view {mask : List Bool} {a b c : Mat K} (h : assignCols mask a b = .ok c)
    (ha : ∀ row ∈ a, row.length = mask.length) :
    c.length = a.length ∧ (∀ row ∈ c, row.length = mask.length) ∧ c.map (gather mask) = b ∧
    ∀ other : List Bool, mask.length = other.length → (∀ p ∈ mask.zip other, ¬ (p.1 = true ∧ p.2 = true)) →
      c.map (gather other) = a.map (gather other) := by
  obtain ⟨h1, h2, rfl⟩ := assignCols_ok h
  clear h
  refine ⟨by simp [h1], ?_, ?_, ?_⟩
  · intro row hrow
    obtain ⟨i, hi, rfl⟩ := List.getElem_of_mem hrow
    simp only [List.getElem_zipWith, scatter_length]
    exact ha _ (List.getElem_mem _)
  · apply List.ext_getElem
    · simp [h1]
    · intro i hi hi'
      simp only [List.getElem_map, List.getElem_zipWith]
      exact gather_scatter _ _ _ (ha _ (List.getElem_mem _)).symm (h2 _ (List.getElem_mem _))
  · intro other ho hd
    apply List.ext_getElem
    · simp [h1]
    · intro i hi hi'
      simp only [List.getElem_map, List.getElem_zipWith]
      exact gather_scatter_other _ _ _ _ ho hd

/-- C34 for an arbitrary model and an arbitrary extrapolator. Whenever compute_sed_with_extrapolation
returns: if every requested wavelength is within the model's range, the result is compute_sed of exactly
the request. Otherwise compute_sed was asked once, for the wavelengths in range (in the requested order)
padded by the two ends of the range; the result has one row per time and one column per requested
wavelength; its columns in range are the computed columns; the columns below (above) the range are, in
order, those of the extrapolator called with the lower (upper) end, the flux there and the wavelengths
below (above), or zero without an extrapolator. (`lo` and `hi` are the model's bounds; a model without a
bound has the smallest or largest requested wavelength there.) -/
theorem C34_columns (m : SEDModel V W R K) (noKw kw : W) (times waves : List K) (st : SState K) (a : Mat K)
    (hle : ∀ l h, m.minwave st = some l → m.maxwave st = some h → l ≤ h)
    (h : m.sedExtrapolated noKw times waves st kw = .ok a) :
    ∃ lo hi, (∀ l, m.minwave st = some l → lo = l) ∧ (∀ l, m.maxwave st = some l → hi = l) ∧
      (m.minwave st = none → lo ∈ waves ∧ ∀ w ∈ waves, lo ≤ w) ∧
      (m.maxwave st = none → hi ∈ waves ∧ ∀ w ∈ waves, w ≤ hi) ∧
      ((∀ w ∈ waves, lo ≤ w ∧ w ≤ hi) → m.computeSed kw st times waves = .ok a) ∧
      ((∃ w ∈ waves, w < lo ∨ hi < w) → ∃ flux,
        m.computeSed noKw st times (lo :: waves.filter (fun w => decide (lo ≤ w ∧ w ≤ hi)) ++ [hi]) = .ok flux ∧
        a.length = times.length ∧ (∀ row ∈ a, row.length = waves.length) ∧
        a.map (gather (waves.map fun w => decide (lo ≤ w ∧ w ≤ hi))) = flux.map (fun row => row.tail.dropLast) ∧
        (m.extrap = none →
          a.map (gather (waves.map fun w => decide (w < lo))) =
            times.map (fun _ => (waves.filter fun w => decide (w < lo)).map fun _ => 0) ∧
          a.map (gather (waves.map fun w => decide (hi < w))) =
            times.map (fun _ => (waves.filter fun w => decide (hi < w)).map fun _ => 0)) ∧
        (∀ ex, m.extrap = some ex →
          a.map (gather (waves.map fun w => decide (w < lo))) =
            ex lo (flux.map fun row => row.headD 0) (waves.filter fun w => decide (w < lo)) ∧
          a.map (gather (waves.map fun w => decide (hi < w))) =
            ex hi (flux.map fun row => row.getLastD 0) (waves.filter fun w => decide (hi < w)))) := by
  unfold SEDModel.sedExtrapolated at h
  cases hmin : npMin waves with
  | none => rw [hmin] at h; simp at h
  | some qlo =>
  cases hmax : npMax waves with
  | none => rw [hmin, hmax] at h; simp at h
  | some qhi =>
  rw [hmin, hmax] at h
  simp only at h
  obtain ⟨lmem, lle⟩ := npMin_spec hmin
  obtain ⟨hmem, hge⟩ := npMax_spec hmax
  have hlo : ∀ l, m.minwave st = some l → (m.minwave st).getD qlo = l := by intro l hl; simp [hl]
  have hhi : ∀ l, m.maxwave st = some l → (m.maxwave st).getD qhi = l := by intro l hl; simp [hl]
  have hlo' : m.minwave st = none → (m.minwave st).getD qlo = qlo := by intro hl; simp [hl]
  have hhi' : m.maxwave st = none → (m.maxwave st).getD qhi = qhi := by intro hl; simp [hl]
  have hno : ∀ w ∈ waves, ¬ (w < (m.minwave st).getD qlo ∧ (m.maxwave st).getD qhi < w) := by
    rintro w hw ⟨h1, h2⟩
    cases e1 : m.minwave st with
    | none => rw [hlo' e1] at h1; exact absurd (lle w hw) (not_le.2 h1)
    | some l =>
      cases e2 : m.maxwave st with
      | none => rw [hhi' e2] at h2; exact absurd (hge w hw) (not_le.2 h2)
      | some u =>
        rw [hlo l e1] at h1; rw [hhi u e2] at h2
        exact absurd ((hle l u e1 e2).trans h2.le) (not_le.2 h1)
  generalize hL : (m.minwave st).getD qlo = lo at *
  generalize hH : (m.maxwave st).getD qhi = hi at *
  refine ⟨lo, hi, hlo, hhi, ?_, ?_, ?_, ?_⟩
  · intro e; rw [hlo' e]; exact ⟨lmem, lle⟩
  · intro e; rw [hhi' e]; exact ⟨hmem, hge⟩
  · intro hall
    rw [if_pos ⟨(hall _ lmem).1, (hall _ hmem).2⟩] at h
    exact h
  · rintro ⟨w, hw, hout⟩
    rw [if_neg (by
      rintro ⟨h1, h2⟩
      rcases hout with ho | ho
      · exact absurd (h1.trans (lle w hw)) (not_le.2 ho)
      · exact absurd ((hge w hw).trans h2) (not_le.2 ho))] at h
    unfold SEDModel.extrapolated at h
    simp only at h
    have hin : (fun w => !decide (w < lo) && !decide (hi < w)) = fun w : K => decide (lo ≤ w ∧ w ≤ hi) := by
      funext w
      simp only [← not_le]
      by_cases h1 : lo ≤ w <;> by_cases h2 : w ≤ hi <;> simp [h1, h2]
    rw [hin] at h
    split at h
    · cases h
    · rename_i flux hflux
      refine ⟨flux, hflux, ?_⟩
      split at h
      · cases h
      · rename_i d hd
        have hz : ∀ row ∈ (times.map fun _ => waves.map fun _ => (0 : K)), row.length = waves.length := by
          intro row hrow
          simp only [List.mem_map] at hrow
          obtain ⟨_, _, rfl⟩ := hrow
          simp
        obtain ⟨d1, d2, d3, d4⟩ := assign_view hd (by simpa using hz)
        have disj1 : ∀ p ∈ (waves.map fun w => decide (lo ≤ w ∧ w ≤ hi)).zip (waves.map fun w => decide (w < lo)),
            ¬ (p.1 = true ∧ p.2 = true) := by
          intro p hp
          obtain ⟨w, _, rfl⟩ := zip_maps hp
          simp only [decide_eq_true_eq]
          rintro ⟨h1, h2⟩
          exact absurd h1.1 (not_le.2 h2)
        have disj2 : ∀ p ∈ (waves.map fun w => decide (lo ≤ w ∧ w ≤ hi)).zip (waves.map fun w => decide (hi < w)),
            ¬ (p.1 = true ∧ p.2 = true) := by
          intro p hp
          obtain ⟨w, _, rfl⟩ := zip_maps hp
          simp only [decide_eq_true_eq]
          rintro ⟨h1, h2⟩
          exact absurd h1.2 (not_le.2 h2)
        have disj3 : ∀ p ∈ (waves.map fun w => decide (w < lo)).zip (waves.map fun w => decide (hi < w)),
            ¬ (p.1 = true ∧ p.2 = true) := by
          intro p hp
          obtain ⟨w, hw, rfl⟩ := zip_maps hp
          simp only [decide_eq_true_eq]
          exact hno w hw
        have swap : ∀ {x y : List Bool}, (∀ p ∈ x.zip y, ¬ (p.1 = true ∧ p.2 = true)) →
            ∀ p ∈ y.zip x, ¬ (p.1 = true ∧ p.2 = true) := by
          intro x y hxy p hp hc
          rw [← List.zip_swap] at hp
          simp only [List.mem_map] at hp
          obtain ⟨q, hq, rfl⟩ := hp
          exact hxy q hq ⟨hc.2, hc.1⟩
        split at h
        · rename_i hex
          cases h
          refine ⟨by simpa using d1, by simpa using d2, d3, ?_, ?_⟩
          · intro _
            rw [d4 _ (by simp) disj1, d4 _ (by simp) disj2]
            simp only [List.map_map, Function.comp_def]
            have hg : ∀ p : K → Bool, gather (waves.map p) (waves.map fun _ => (0 : K)) = (waves.filter p).map fun _ => 0 := by
              intro p
              clear * -
              induction waves with
              | nil => simp
              | cons x l ih => cases hx : p x <;> simp only [hx, List.map_cons, gather_true, gather_false, List.filter_cons_of_pos, List.filter_cons_of_neg, ih, Bool.false_eq_true, not_false_eq_true]
            rw [hg, hg]
            exact ⟨rfl, rfl⟩
          · intro ex he; rw [hex] at he; cases he
        · rename_i ex hex
          split at h
          · cases h
          · rename_i d' hd'
            obtain ⟨e1, e2, e3, e4⟩ := assign_view hd' (by simpa using d2)
            obtain ⟨f1, f2, f3, f4⟩ := assign_view h (by simpa using e2)
            refine ⟨by rw [f1, e1, d1]; simp, by simpa using f2, ?_, ?_, ?_⟩
            · rw [f4 _ (by simp) (swap disj2), e4 _ (by simp) (swap disj1)]
              exact d3
            · intro he; rw [hex] at he; cases he
            · intro ex' he
              rw [hex] at he; cases he
              refine ⟨?_, f3⟩
              rw [f4 _ (by simp) (swap disj3), e3]
              congr 1
              unfold column
              apply List.map_congr_left
              intro row _
              cases row <;> rfl

/-- C34 for a pointwise model and extrapolator: every entry, at its requested position, is the model's
value inside the range and the extrapolation of the edge value outside; for any order and repetition of
the requested wavelengths. -/
theorem C34_pointwise (m : SEDModel V W R K) (noKw kw : W) (times waves : List K) (st : SState K)
    (F : K → K → K) (G : K → K → K → K) (hF : Pointwise m st F)
    (hG : (m.extrap = none ∧ G = fun _ _ _ => 0) ∨ ∃ ex, m.extrap = some ex ∧ PointwiseExt ex G)
    (hle : ∀ l h, m.minwave st = some l → m.maxwave st = some h → l ≤ h) (hne : waves ≠ []) :
    m.sedExtrapolated noKw times waves st kw =
      .ok (times.map fun t => waves.map (stretch (m.minwave st) (m.maxwave st) (F t) G)) := by
  unfold SEDModel.sedExtrapolated
  cases hmin : npMin waves with
  | none => exact absurd (npMin_none hmin) hne
  | some qlo =>
  cases hmax : npMax waves with
  | none => exact absurd (npMax_none hmax) hne
  | some qhi =>
  simp only
  obtain ⟨lmem, lle⟩ := npMin_spec hmin
  obtain ⟨hmem, hge⟩ := npMax_spec hmax
  have hst : ∀ t, ∀ w ∈ waves, stretch (m.minwave st) (m.maxwave st) (F t) G w =
      if w < (m.minwave st).getD qlo then G ((m.minwave st).getD qlo) (F t ((m.minwave st).getD qlo)) w
      else if (m.maxwave st).getD qhi < w then G ((m.maxwave st).getD qhi) (F t ((m.maxwave st).getD qhi)) w
      else F t w := by
    intro t w hw
    unfold stretch
    cases e1 : m.minwave st with
    | none =>
      simp only [Option.getD_none, Option.filter_none]
      rw [if_neg (not_lt.2 (lle w hw))]
      cases e2 : m.maxwave st with
      | none => simp [not_lt.2 (hge w hw)]
      | some u => by_cases hu : u < w <;> simp [Option.filter, hu]
    | some l =>
      by_cases hl : w < l
      · simp [Option.filter, hl]
      · cases e2 : m.maxwave st with
        | none => simp [Option.filter, hl, not_lt.2 (hge w hw)]
        | some u => by_cases hu : u < w <;> simp [Option.filter, hl, hu]
  have hno : ∀ w ∈ waves, (m.maxwave st).getD qhi < w → ¬ w < (m.minwave st).getD qlo := by
    intro w hw h2 h1
    cases e1 : m.minwave st with
    | none => simp only [e1, Option.getD_none] at h1; exact absurd (lle w hw) (not_le.2 h1)
    | some l =>
      cases e2 : m.maxwave st with
      | none => simp only [e2, Option.getD_none] at h2; exact absurd (hge w hw) (not_le.2 h2)
      | some u =>
        simp only [e1, e2, Option.getD_some] at h1 h2
        exact absurd ((hle l u e1 e2).trans h2.le) (not_le.2 h1)
  have hres : (times.map fun t => waves.map (stretch (m.minwave st) (m.maxwave st) (F t) G)) =
      times.map fun t => waves.map fun w =>
        if w < (m.minwave st).getD qlo then G ((m.minwave st).getD qlo) (F t ((m.minwave st).getD qlo)) w
        else if (m.maxwave st).getD qhi < w then G ((m.maxwave st).getD qhi) (F t ((m.maxwave st).getD qhi)) w
        else F t w := by
    apply List.map_congr_left; intro t _
    apply List.map_congr_left; intro w hw
    exact hst t w hw
  rw [hres]
  generalize (m.minwave st).getD qlo = lo at *
  generalize (m.maxwave st).getD qhi = hi at *
  by_cases hc : lo ≤ qlo ∧ qhi ≤ hi
  · rw [if_pos hc, hF]
    congr 1
    apply List.map_congr_left; intro t _
    apply List.map_congr_left; intro w hw
    rw [if_neg (not_lt.2 (hc.1.trans (lle w hw))), if_neg (not_lt.2 ((hge w hw).trans hc.2))]
  · rw [if_neg hc]
    unfold SEDModel.extrapolated
    simp only
    rw [hF]
    simp only
    have hz : ∀ (mask : List Bool) (rows : K → List K) (vals : K → List K),
        (∀ t, (vals t).length = mask.count true) →
        assignCols mask (times.map rows) (times.map vals) = .ok (times.map fun t => scatter mask (rows t) (vals t)) := by
      intro mask rows vals hv
      unfold assignCols
      rw [if_pos]
      · congr 1
        simp only [List.zipWith_map_left, List.zipWith_map_right, List.zipWith_self]
      · refine ⟨by simp, ?_⟩
        intro row hrow
        obtain ⟨t, _, rfl⟩ := List.mem_map.1 hrow
        exact hv t
    have hmid : (times.map fun t => (lo :: (waves.filter fun w => !decide (w < lo) && !decide (hi < w)) ++ [hi]).map (F t)).map
        (fun row => row.tail.dropLast) =
        times.map fun t => (waves.filter fun w => !decide (w < lo) && !decide (hi < w)).map (F t) := by
      simp [List.map_map, Function.comp_def]
    rw [hmid, hz _ _ _ (by intro t; rw [count_map_true]; simp)]
    simp only
    rcases hG with ⟨he, rfl⟩ | ⟨ex, he, hex⟩
    · rw [he]
      simp only
      congr 1
      apply List.map_congr_left; intro t _
      rw [scatter_map]
      apply List.map_congr_left; intro w hw
      by_cases h1 : w < lo <;> by_cases h2 : hi < w <;> simp [h1, h2]
    · rw [he]
      simp only
      have hcol0 : column (times.map fun t => (lo :: (waves.filter fun w => !decide (w < lo) && !decide (hi < w)) ++ [hi]).map (F t)) 0 =
          times.map fun t => F t lo := by
        simp [column, List.map_map, Function.comp_def]
      have hcol1 : (times.map fun t => (lo :: (waves.filter fun w => !decide (w < lo) && !decide (hi < w)) ++ [hi]).map (F t)).map
          (fun row => row.getLastD 0) = times.map fun t => F t hi := by
        simp only [List.map_map, Function.comp_def]
        apply List.map_congr_left; intro t _
        rw [List.getLastD_eq_getLast?, List.map_append, List.getLast?_append]
        simp
      rw [hcol0, hcol1, hex, hex]
      simp only [List.map_map, Function.comp_def]
      rw [hz _ _ _ (by intro t; rw [count_map_true]; simp)]
      simp only
      rw [hz _ _ _ (by intro t; rw [count_map_true]; simp)]
      congr 1
      apply List.map_congr_left; intro t _
      rw [scatter_map, scatter_map, scatter_map]
      apply List.map_congr_left; intro w hw
      by_cases h2 : hi < w
      · have h1 := hno w hw h2
        simp [h1, h2]
      · by_cases h1 : w < lo <;> simp [h1, h2]

/-- C34 says nothing about an empty request: it raises ValueError. -/
theorem C34_empty_raises (m : SEDModel V W R K) (noKw kw : W) (times : List K) (st : SState K) :
    m.sedExtrapolated noKw times [] st kw = .error .valueError := rfl

/-! ## The built-in extrapolators -/
section
variable [IsStrictOrderedRing K]

theorem clip_spec (x : K) : 0 ≤ clip01 x ∧ clip01 x ≤ 1 := by
  unfold clip01
  exact ⟨le_min (le_max_right _ _) zero_le_one, min_le_right _ _⟩

theorem clip_lipschitz (x y : K) : |clip01 x - clip01 y| ≤ |x - y| := by
  unfold clip01
  exact (abs_min_sub_min_le_max _ _ _ _).trans (by
    rw [sub_self, abs_zero, max_eq_left (abs_nonneg _)]
    exact (abs_max_sub_max_le_max _ _ _ _).trans (by
      rw [sub_self, abs_zero, max_eq_left (abs_nonneg _)]))

/-- C34, the built-in extrapolators: the zero and constant ones give their value everywhere; the last-value
one continues the edge value; the linear decay starts at the edge value, is Lipschitz (hence continuous),
never exceeds the edge value, never changes its sign, and is zero from one decay width on; invalid settings raise
ValueError. -/
theorem C34_builtin (value width : K) :
    PointwiseExt (zeroExtrapolation (K := K)) (fun _ _ _ => 0) ∧
    PointwiseExt (lastValueExtrapolation (K := K)) (fun _ f _ => f) ∧
    (0 ≤ value → ∃ ex, constantExtrapolation value = .ok ex ∧ PointwiseExt ex fun _ _ _ => value) ∧
    (value < 0 → constantExtrapolation value = .error .valueError) ∧
    (width ≤ 0 → linearDecay width = .error .valueError) ∧
    (0 < width → ∃ ex G, linearDecay width = .ok ex ∧ PointwiseExt ex G ∧
      (∀ e f, G e f e = f) ∧
      (∀ e f w w', |G e f w - G e f w'| ≤ |f| / width * |w - w'|) ∧
      (∀ e f w, |G e f w| ≤ |f| ∧ 0 ≤ f * G e f w) ∧
      (∀ e f w, |w - e| ≤ width → G e f w = f * (1 - |w - e| / width)) ∧
      ∀ e f w, width ≤ |w - e| → G e f w = 0) := by
  refine ⟨fun _ _ _ => rfl, fun _ _ _ => rfl, ?_, ?_, ?_, ?_⟩
  · intro h
    exact ⟨_, by unfold constantExtrapolation; rw [if_neg (not_lt.2 h)], fun _ _ _ => rfl⟩
  · intro h
    unfold constantExtrapolation; rw [if_pos h]
  · intro h
    unfold linearDecay; rw [if_pos h]
  · intro h
    refine ⟨_, fun e f w => f * clip01 (1 - |w - e| / width),
      by unfold linearDecay; rw [if_neg (not_le.2 h)], fun _ _ _ => rfl, ?_, ?_, ?_, ?_, ?_⟩
    · intro e f
      simp [clip01]
    · intro e f w w'
      rw [← mul_sub, abs_mul, div_mul_eq_mul_div, mul_div_assoc]
      apply mul_le_mul_of_nonneg_left _ (abs_nonneg _)
      refine (clip_lipschitz _ _).trans ?_
      have : (1 - |w - e| / width) - (1 - |w' - e| / width) = (|w' - e| - |w - e|) / width := by ring
      rw [this, abs_div, abs_of_pos h]
      apply div_le_div_of_nonneg_right _ h.le
      refine (abs_abs_sub_abs_le _ _).trans ?_
      rw [abs_sub_comm w w']
      simp
    · intro e f w
      obtain ⟨c0, c1⟩ := clip_spec (1 - |w - e| / width)
      refine ⟨?_, ?_⟩
      · simp only
        rw [abs_mul, abs_of_nonneg c0]
        exact mul_le_of_le_one_right (abs_nonneg _) c1
      · simp only
        rw [← mul_assoc]
        exact mul_nonneg (mul_self_nonneg f) c0
    · intro e f w hw
      have h1 : |w - e| / width ≤ 1 := (div_le_one h).2 hw
      have h2 : 0 ≤ |w - e| / width := div_nonneg (abs_nonneg _) h.le
      simp only [clip01]
      rw [max_eq_left (by linarith), min_eq_left (by linarith)]
    · intro e f w hw
      have h1 : 1 ≤ |w - e| / width := (one_le_div h).2 hw
      simp only [clip01]
      rw [max_eq_right (by linarith), min_eq_left zero_le_one, mul_zero]

end

/-- C34, exponential decay over the reals: it starts at the edge value, is continuous, never exceeds the
edge value and never changes its sign; a negative rate raises ValueError. -/
theorem C34_exponential (rate : ℝ) :
    (rate < 0 → exponentialDecay Real.exp rate = .error .valueError) ∧
    (0 ≤ rate → ∃ ex G, exponentialDecay Real.exp rate = .ok ex ∧ PointwiseExt ex G ∧
      (∀ e f, G e f e = f) ∧ (∀ e f, Continuous (G e f)) ∧
      (∀ e f w, |G e f w| ≤ |f| ∧ 0 ≤ f * G e f w) ∧
      ∀ e f w, G e f w = f * Real.exp (-rate * |w - e|)) := by
  refine ⟨fun h => by unfold exponentialDecay; rw [if_pos h], fun h => ?_⟩
  refine ⟨_, fun e f w => f * Real.exp (-rate * |w - e|), by unfold exponentialDecay; rw [if_neg (not_lt.2 h)],
    fun _ _ _ => rfl, ?_, ?_, ?_, fun _ _ _ => rfl⟩
  · intro e f; simp
  · intro e f
    fun_prop
  · intro e f w
    have h1 : 0 < Real.exp (-rate * |w - e|) := Real.exp_pos _
    have h2 : Real.exp (-rate * |w - e|) ≤ 1 := by
      rw [Real.exp_le_one_iff]
      have := mul_nonneg h (abs_nonneg (w - e))
      linarith
    refine ⟨?_, ?_⟩
    · simp only
      rw [abs_mul, abs_of_pos h1]
      exact mul_le_of_le_one_right (abs_nonneg _) h2
    · simp only
      rw [← mul_assoc]
      exact mul_nonneg (mul_self_nonneg f) h1.le

/-! ## Example -/

/-- A model of flux `t + w` on [2, 4]. -/
def exampleModel (ex : Option (ℚ → List ℚ → List ℚ → Mat ℚ)) : SEDModel Unit Unit Unit ℚ where
  nodeString := []
  setters := []
  computeSed := fun _ _ ts ws => .ok (ts.map fun t => ws.map fun w => t + w)
  minwave := fun _ => some 2
  maxwave := fun _ => some 4
  extrap := ex
  applyRedshift := false
  restEffects := []
  obsEffects := []

/-- The hypotheses of `C34_pointwise` are met: an unsorted request, with entries on both sides. -/
example : (exampleModel (some lastValueExtrapolation)).sedExtrapolated () [10, 20] [5, 3, 1, 4, 1] [] () =
    .ok [[14, 13, 12, 14, 12], [24, 23, 22, 24, 22]] := by
  rw [C34_pointwise _ _ _ _ _ _ (fun t w => t + w) (fun _ f _ => f) (fun _ _ _ => rfl)
    (Or.inr ⟨_, rfl, fun _ _ _ => rfl⟩) (by intro l h hl hh; cases hl; cases hh; norm_num) (by simp)]
  norm_num [stretch, exampleModel, Option.filter]

end LCL.ExtrapolationProps
