import Verif.Lemmas.Passband
import Mathlib.Algebra.Order.Floor.Ring
import Mathlib.Tactic.NormNum
import Mathlib.Data.Rat.Floor

/-!
# Properties C27 and C28: the transmission table pipeline
-/

namespace LCL.PassbandProps
open LCL LCL.PassbandSpec LCL.PassbandLemmas
variable {K : Type} [Field K] [LinearOrder K] [IsStrictOrderedRing K] [FloorRing K]

theorem all_close {l : List K} {d : K} (h : (npDiff l).all (fun g => decide (isClose g d)) = true) :
    Steps (fun g => isClose g d) l := by
  unfold Steps
  induction l with
  | nil => simp
  | cons a l ih =>
    cases l with
    | nil => simp
    | cons b l =>
      simp only [npDiff, List.all_cons, Bool.and_eq_true, decide_eq_true_eq] at h
      rw [List.isChain_cons_cons]
      exact ⟨h.1, ih h.2⟩

theorem not_close_two {l : List K} {d : K} (h : ¬ (npDiff l).all (fun g => decide (isClose g d)) = true) :
    ∃ a b m, l = a :: b :: m := by
  match l with
  | [] => simp [npDiff] at h
  | [a] => simp [npDiff] at h
  | a :: b :: m => exact ⟨a, b, m, rfl⟩

theorem pairwise_head_last {l : List K} (h : l.Pairwise (· < ·)) {lo hi : K} (h1 : l.head? = some lo)
    (h2 : l.getLast? = some hi) : ∀ w ∈ l, lo ≤ w ∧ w ≤ hi := by
  intro w hw
  constructor
  · cases l with
    | nil => simp at hw
    | cons a l =>
      simp at h1; subst h1
      rcases List.mem_cons.1 hw with rfl | hm
      · exact le_rfl
      · exact ((List.pairwise_cons.1 h).1 w hm).le
  · obtain ⟨pre, rfl⟩ := List.getLast?_eq_some_iff.1 h2
    rcases List.mem_append.1 hw with hm | hm
    · exact ((List.pairwise_append.1 h).2.2 w hm hi (by simp)).le
    · simp at hm; exact hm.le

/-- The two ways a table is put on a grid of step `d`. -/
theorem interpolate_cases {t t1 : List (K × K)} {d : K} (hd : 0 < d) (ht : (t.map (·.1)).Pairwise (· < ·))
    (h : Passband.interpolate t (some d) = .ok t1) :
    (t1 = t ∧ Steps (fun g => isClose g d) (t.map (·.1))) ∨
    ∃ (lo hi : K) (n : Nat), (t.map (·.1)).head? = some lo ∧ (t.map (·.1)).getLast? = some hi ∧ lo < hi ∧
      n * d ≤ hi - lo ∧ hi - lo < (n + 1) * d ∧
      t1 = (linspace lo hi (n + 1)).map fun w => (w, interpAt (t.map (·.1)) (t.map (·.2)) w) := by
  unfold Passband.interpolate at h
  simp only at h
  split at h
  · rename_i hc
    cases h
    exact Or.inl ⟨rfl, all_close hc⟩
  · rename_i hc
    right
    rw [if_neg hd.ne'] at h
    obtain ⟨a, b, m, hl⟩ := not_close_two hc
    have hlo : (t.map (·.1)).head? = some ((t.map (·.1)).headD 0) := by rw [hl]; rfl
    have hhi : (t.map (·.1)).getLast? = some ((t.map (·.1)).getLastD 0) := by
      rw [hl]; simp [List.getLast?_cons, List.getLastD_eq_getLast?]
    refine ⟨(t.map (·.1)).headD 0, (t.map (·.1)).getLastD 0, ?_⟩
    generalize hlo' : (t.map (·.1)).headD 0 = lo at *
    generalize hhi' : (t.map (·.1)).getLastD 0 = hi at *
    have hb := pairwise_head_last ht hlo hhi b (by rw [hl]; simp)
    have hab : a < b := (List.pairwise_cons.1 (by rw [hl] at ht; exact ht)).1 b (by simp)
    have ha : a = lo := by rw [hl] at hlo; simpa using hlo
    have hlt : lo < hi := by rw [← ha]; exact lt_of_lt_of_le hab hb.2
    have hq : 0 ≤ (hi - lo) / d := div_nonneg (by linarith) hd.le
    have hpy : pyInt ((hi - lo) / d) = ⌊(hi - lo) / d⌋ := by unfold pyInt; rw [if_pos hq]
    have hf0 : 0 ≤ ⌊(hi - lo) / d⌋ := Int.floor_nonneg.2 hq
    rw [hpy, if_neg (by omega)] at h
    cases h
    refine ⟨⌊(hi - lo) / d⌋.toNat, hlo, hhi, hlt, ?_, ?_, ?_⟩
    · have := Int.floor_le ((hi - lo) / d)
      rw [le_div_iff₀ hd] at this
      have e : ((⌊(hi - lo) / d⌋.toNat : Nat) : K) = ((⌊(hi - lo) / d⌋ : Int) : K) := by
        rw [← Int.cast_natCast, Int.toNat_of_nonneg hf0]
      rw [e]; exact this
    · have := Int.lt_floor_add_one ((hi - lo) / d)
      rw [div_lt_iff₀ hd] at this
      have e : ((⌊(hi - lo) / d⌋.toNat : Nat) : K) = ((⌊(hi - lo) / d⌋ : Int) : K) := by
        rw [← Int.cast_natCast, Int.toNat_of_nonneg hf0]
      rw [e]; exact this
    · congr 2
      omega

/-- C27. For every strictly increasing table and every positive `delta_wave` not wider than the
table: the interpolated grid is strictly increasing and spans exactly the table's range; the
transmission values lie between any bounds of the table's values (in particular between 0 and its
maximum for a non-negative table); and at a grid point that is a table wavelength the value is the
table's. The grid has either the table's own wavelengths (all steps within numpy's `allclose` of
`delta_wave`), or equal steps `h` with `delta_wave ≤ h < 2 delta_wave`. -/
theorem C27_interpolated (t : List (K × K)) (ht : (t.map (·.1)).Pairwise (· < ·)) (d lo hi : K) (hd : 0 < d)
    (hlo : (t.map (·.1)).head? = some lo) (hhi : (t.map (·.1)).getLast? = some hi) (hrange : d ≤ hi - lo) :
    ∃ t1, Passband.interpolate t (some d) = .ok t1 ∧
      (t1.map (·.1)).Pairwise (· < ·) ∧ (t1.map (·.1)).head? = some lo ∧ (t1.map (·.1)).getLast? = some hi ∧
      (∀ a b, (∀ p ∈ t, a ≤ p.2 ∧ p.2 ≤ b) → ∀ p ∈ t1, a ≤ p.2 ∧ p.2 ≤ b) ∧
      (∀ w y y', (w, y) ∈ t → (w, y') ∈ t1 → y' = y) ∧
      (Steps (fun g => isClose g d) (t1.map (·.1)) ∨
        ∃ h, d ≤ h ∧ h < 2 * d ∧ Steps (fun g => g = h) (t1.map (·.1))) := by
  have hok : ∃ t1, Passband.interpolate t (some d) = .ok t1 := by
    unfold Passband.interpolate
    simp only
    split
    · exact ⟨_, rfl⟩
    · rw [if_neg hd.ne', if_neg]
      · exact ⟨_, rfl⟩
      · have e1 : (t.map (·.1)).headD 0 = lo := by
          cases hl : t.map (·.1) with
          | nil => rw [hl] at hlo; simp at hlo
          | cons a l => rw [hl] at hlo; simpa using hlo
        have e2 : (t.map (·.1)).getLastD 0 = hi := by rw [List.getLastD_eq_getLast?, hhi]; rfl
        rw [e1, e2]
        have hq : 0 ≤ (hi - lo) / d := div_nonneg (by linarith) hd.le
        unfold pyInt
        rw [if_pos hq]
        have := Int.floor_nonneg.2 hq
        omega
  obtain ⟨t1, h1⟩ := hok
  refine ⟨t1, h1, ?_⟩
  rcases interpolate_cases hd ht h1 with ⟨rfl, hs⟩ | ⟨lo', hi', n, g1, g2, g3, g4, g5, rfl⟩
  · refine ⟨ht, hlo, hhi, fun a b h => h, ?_, Or.inl hs⟩
    intro w y y' hy hy'
    obtain ⟨i, hi1, e1⟩ := List.getElem_of_mem hy
    obtain ⟨j, hj1, e2⟩ := List.getElem_of_mem hy'
    have hnd : (t1.map (·.1)).Nodup := ht.imp (fun h => h.ne)
    have : i = j := by
      have h1 : i < (t1.map (·.1)).length := by simpa using hi1
      have h2 : j < (t1.map (·.1)).length := by simpa using hj1
      have h3 : (t1.map (·.1))[i] = (t1.map (·.1))[j] := by simp [e1, e2]
      exact (List.getElem_inj hnd).1 h3
    subst this
    rw [e1] at e2; cases e2; rfl
  · rw [hlo] at g1; cases g1
    rw [hhi] at g2; cases g2
    have hn : 1 ≤ n := by
      by_contra hc
      have : n = 0 := by omega
      subst this
      simp at g5
      linarith
    have hn0 : (0 : K) < n := by rw [Nat.cast_pos]; omega
    have hmap : ((linspace lo hi (n + 1)).map fun w => (w, interpAt (t.map (·.1)) (t.map (·.2)) w)).map (·.1) =
        linspace lo hi (n + 1) := by rw [List.map_map]; simp [Function.comp_def]
    rw [hmap]
    have hst := linspace_steps lo hi (n + 1)
    simp only [Nat.add_sub_cancel] at hst
    have hlen : (t.map (·.1)).length = (t.map (·.2)).length := by simp
    refine ⟨?_, linspace_head lo hi _ (by omega), linspace_last lo hi _ (by omega), ?_, ?_,
      Or.inr ⟨(hi - lo) / n, ?_, ?_, hst⟩⟩
    · apply steps_pos_pairwise
      refine Steps_mono ?_ hst
      intro g hg
      rw [hg]; exact div_pos (by linarith) hn0
    · intro a b hab p hp
      obtain ⟨w, hw, rfl⟩ := List.mem_map.1 hp
      refine interpAt_bounds _ _ w hlen ?_ ?_ ?_
      · intro h0
        rw [List.map_eq_nil_iff] at h0
        rw [h0] at hlo; simp at hlo
      · intro x hx
        rw [hlo] at hx; cases hx
        exact (linspace_mem lo hi g3.le _ w hw).1
      · intro y hy
        obtain ⟨p, hp, rfl⟩ := List.mem_map.1 hy
        exact hab p hp
    · intro w y y' hy hy'
      obtain ⟨w', _, e⟩ := List.mem_map.1 hy'
      cases e
      obtain ⟨i, hi1, e1⟩ := List.getElem_of_mem hy
      exact interpAt_knot _ _ i w y hlen ht (by
        rw [List.getElem?_map, List.getElem?_eq_getElem hi1, e1]; rfl) (by
        rw [List.getElem?_map, List.getElem?_eq_getElem hi1, e1]; rfl)
    · rw [le_div_iff₀ hn0]; linarith
    · rw [div_lt_iff₀ hn0]
      have : (1 : K) ≤ n := by exact_mod_cast hn
      nlinarith

/-- A table meeting the hypotheses of `C27_interpolated`. -/
example : (([(1, 0), (3, 1), (13, 0)] : List (ℚ × ℚ)).map (·.1)).Pairwise (· < ·) ∧ (5 : ℚ) ≤ 13 - 1 := by
  norm_num

/-! ## C28 -/

theorem sum_take_cells : ∀ (t : List (K × K)) (i : Nat), ((trapCells t).take i).sum = area (t.take (i + 1)) := by
  intro t
  induction t with
  | nil => intro i; simp [trapCells, area]
  | cons p t ih =>
    intro i
    cases t with
    | nil => simp [trapCells, area]
    | cons q t =>
      cases i with
      | zero => simp [area]
      | succ i =>
        simp only [trapCells, List.take_succ_cons, List.sum_cons, area]
        rw [ih i]
        simp only [List.take_succ_cons]
        rw [add_comm q.2]

theorem cells_length : ∀ (t : List (K × K)), (trapCells t).length = t.length - 1 := by
  intro t
  induction t with
  | nil => rfl
  | cons p t ih =>
    cases t with
    | nil => rfl
    | cons q t => simp only [trapCells, List.length_cons, ih]; simp

theorem cells_nonneg : ∀ (t : List (K × K)), (∀ p ∈ t, 0 ≤ p.2) → Steps (fun g => 0 < g) (t.map (·.1)) →
    ∀ c ∈ trapCells t, 0 ≤ c := by
  intro t
  induction t with
  | nil => intro _ _ c hc; simp [trapCells] at hc
  | cons p t ih =>
    intro hp hs c hc
    cases t with
    | nil => simp [trapCells] at hc
    | cons q t =>
      simp only [List.map_cons, Steps, List.isChain_cons_cons] at hs ih
      simp only [trapCells, List.mem_cons] at hc
      rcases hc with rfl | hc
      · have y0 := hp p (by simp)
        have y1 := hp q (by simp)
        have := hs.1
        apply div_nonneg (mul_nonneg this.le (by linarith)) (by norm_num)
      · exact ih (fun r hr => hp r (List.mem_cons_of_mem _ hr)) hs.2 c hc

/-- The area of a table is the area up to a row plus the area from that row on. -/
theorem area_split : ∀ (t : List (K × K)) (i : Nat), area (t.take (i + 1)) + area (t.drop i) = area t := by
  intro t
  induction t with
  | nil => intro i; simp [area]
  | cons p t ih =>
    intro i
    cases i with
    | zero => simp [area]
    | succ i =>
      cases t with
      | nil => simp [area]
      | cons q t =>
        have := ih i
        simp only [List.take_succ_cons, List.drop_succ_cons, area] at this ⊢
        linarith

/-- What trimming computes on a physical table of positive total area. -/
theorem trim_rows (t : List (K × K)) (q : K) (hq0 : 0 < q) (hq1 : q < 1 / 2) (hp : ∀ p ∈ t, 0 ≤ p.2)
    (hs : Steps (fun g => 0 < g) (t.map (·.1))) (harea : area t ≠ 0) :
    ∃ lower upper, Passband.trim t (some q) = .ok ((t.take (upper + 1)).drop lower) ∧
      area (t.take (lower + 1)) ≤ q * area t ∧
      (0 < lower → area (t.take (lower + 2)) ≤ q * area t ) ∧
      upper + 1 < t.length ∧ area (t.take (upper + 1)) < (1 - q) * area t ∧
      (1 - q) * area t ≤ area (t.take (upper + 2)) ∧ lower ≤ upper := by
  have hpos : 0 < area t := lt_of_le_of_ne
    (area_nonneg t hp (Steps_mono (fun g hg => le_of_lt hg) hs)) (fun e => harea e.symm)
  have hne : t ≠ [] := by rintro rfl; simp [area] at harea
  have hlen2 : 2 ≤ t.length := by
    match t with
    | [] => exact absurd rfl hne
    | [p] => simp [area] at harea
    | p :: q :: l => simp
  have hcn := cells_nonneg t hp hs
  have hcl := cells_length t
  set cells := trapCells t with hcells
  have hsum : cells.sum = area t := by rw [← trapezoid_eq_area]; rfl
  have hcum : ∀ i, i < cells.length → (cumTrapezoid t)[i]? = some (area (t.take (i + 2))) := by
    intro i hi
    unfold cumTrapezoid
    rw [← hcells, cumsum_getElem? _ i hi, hcells, sum_take_cells]
  have hclen : (cumTrapezoid t).length = cells.length := by unfold cumTrapezoid cumsum; simp [hcells]
  have hlast : (cumTrapezoid t).getLast? = some (area t) := by
    rw [List.getLast?_eq_getElem?, hclen, hcum _ (by omega)]
    rw [List.take_of_length_le (by omega)]
  set c := (cumTrapezoid t).map (· / area t) with hc
  have hcget : ∀ i, i < cells.length → c[i]? = some (area (t.take (i + 2)) / area t) := by
    intro i hi
    rw [hc, List.getElem?_map, hcum i hi]; rfl
  have hcc : c.length = cells.length := by rw [hc, List.length_map, hclen]
  have hmono : ∀ i j, i ≤ j → area (t.take (i + 1)) ≤ area (t.take (j + 1)) := by
    intro i j hij
    rw [← sum_take_cells, ← sum_take_cells]
    exact sum_take_mono _ hcn hij
  -- the searches
  have hfull : area (t.take (cells.length - 1 + 2)) = area t := by rw [List.take_of_length_le (by omega)]
  have hR : searchRight c q < cells.length := by
    by_contra hcon
    have hle : (c.takeWhile (fun x => decide (x ≤ q))).length ≤ c.length := (List.takeWhile_prefix _).length_le
    have heq : c.takeWhile (fun x => decide (x ≤ q)) = c := by
      apply (List.takeWhile_prefix _).eq_of_length
      unfold searchRight at hcon
      omega
    have hm : (area t / area t) ∈ c := by
      apply List.mem_of_getElem? (i := cells.length - 1)
      rw [hcget _ (by omega), hfull]
    rw [← heq] at hm
    have := mem_takeWhile_pred hm
    rw [div_self hpos.ne'] at this
    simp at this
    linarith
  have hL : searchLeft c (1 - q) < cells.length := by
    by_contra hcon
    have hle : (c.takeWhile (fun x => decide (x < 1 - q))).length ≤ c.length := (List.takeWhile_prefix _).length_le
    have heq : c.takeWhile (fun x => decide (x < 1 - q)) = c := by
      apply (List.takeWhile_prefix _).eq_of_length
      unfold searchLeft at hcon
      omega
    have hm : (area t / area t) ∈ c := by
      apply List.mem_of_getElem? (i := cells.length - 1)
      rw [hcget _ (by omega), hfull]
    rw [← heq] at hm
    have := mem_takeWhile_pred hm
    rw [div_self hpos.ne'] at this
    simp at this
    linarith
  obtain ⟨r1, r2⟩ := (takeWhile_length_iff _ c (searchRight c q) (by rw [hcc]; exact hR)).1 rfl
  obtain ⟨l1, l2⟩ := (takeWhile_length_iff _ c (searchLeft c (1 - q)) (by rw [hcc]; exact hL)).1 rfl
  have r1' : ∀ j, j < searchRight c q → area (t.take (j + 2)) ≤ q * area t := by
    intro j hj
    have := r1 j _ hj (hcget j (by omega))
    rw [decide_eq_true_eq, div_le_iff₀ hpos] at this
    exact this
  have r2' : q * area t < area (t.take (searchRight c q + 2)) := by
    have := r2 _ (hcget _ hR)
    rw [decide_eq_false_iff_not, not_le, lt_div_iff₀ hpos] at this
    exact this
  have l1' : ∀ j, j < searchLeft c (1 - q) → area (t.take (j + 2)) < (1 - q) * area t := by
    intro j hj
    have := l1 j _ hj (hcget j (by omega))
    rw [decide_eq_true_eq, div_lt_iff₀ hpos] at this
    exact this
  have l2' : (1 - q) * area t ≤ area (t.take (searchLeft c (1 - q) + 2)) := by
    have := l2 _ (hcget _ hL)
    rw [decide_eq_false_iff_not, not_lt, le_div_iff₀ hpos] at this
    exact this
  have harea1 : area (t.take 1) = 0 := by
    cases t with
    | nil => simp [area]
    | cons p t => simp [area]
  refine ⟨searchRight c q - 1, searchLeft c (1 - q), ?_, ?_, ?_, by omega, ?_, l2', ?_⟩
  · unfold Passband.trim
    simp only
    rw [if_neg hq0.ne', if_neg (by push Not; exact ⟨hq0.le, hq1⟩), if_neg hne, hlast]
    simp only
    rw [if_neg harea]
  · cases hr : searchRight c q - 1 with
    | zero => rw [harea1]; exact mul_nonneg hq0.le hpos.le
    | succ j =>
      exact r1' j (by omega)
  · intro h0
    exact r1' _ (by omega)
  · cases hr : searchLeft c (1 - q) with
    | zero => rw [harea1]; exact mul_pos (by linarith) hpos
    | succ j => exact l1' j (by omega)
  · -- lower ≤ upper
    by_contra hcon
    push Not at hcon
    have h1 := r1' (searchRight c q - 1) (by omega)
    have h2 := hmono (searchLeft c (1 - q) + 1) (searchRight c q - 1 + 1) (by omega)
    have : (1 - q) * area t ≤ q * area t := l2'.trans (h2.trans h1)
    have := le_of_mul_le_mul_right this hpos
    linarith

/-- C28, except for the upper tail. For every physical, strictly increasing table of positive area
and every quantile `0 < q < 1/2`, trimming keeps a contiguous run of unchanged rows; the area dropped
below it is at most the fraction `q`, and the area dropped above it is at most `q` plus the one
trapezoid above the last kept row (adding back the row `upper + 1` makes the tail at most `q`).
Quantiles 0 and None keep the table. Missing: the area dropped above is *not* at most `q`
(`C28_upper_tail_counterexample`). -/
theorem C28_trim_partial (t : List (K × K)) (hp : Physical t) (hs : (t.map (·.1)).Pairwise (· < ·)) (harea : area t ≠ 0) :
    (∀ q, 0 < q → q < 1 / 2 → ∃ lower upper, lower ≤ upper ∧ upper + 1 < t.length ∧
      Passband.trim t (some q) = .ok ((t.take (upper + 1)).drop lower) ∧
      area (t.take (lower + 1)) ≤ q * area t ∧
      area (t.drop (upper + 1)) ≤ q * area t) ∧
    Passband.trim t none = .ok t ∧ Passband.trim t (some 0) = .ok t ∧
    ∀ q, (q < 0 ∨ 1 / 2 ≤ q) → Passband.trim t (some q) = .error .valueError := by
  have hsteps : Steps (fun g => 0 < g) (t.map (·.1)) := by
    rw [← List.isChain_iff_pairwise] at hs
    exact hs.imp (fun a b hab => by linarith)
  refine ⟨?_, rfl, by unfold Passband.trim; simp, ?_⟩
  · intro q h0 h1
    obtain ⟨lower, upper, e1, e2, _, e4, e5, e6, e7⟩ := trim_rows t q h0 h1 (fun p h => (hp p h).2) hsteps harea
    refine ⟨lower, upper, e7, e4, e1, e2, ?_⟩
    have h := area_split t (upper + 1)
    linarith
  · intro q hq
    unfold Passband.trim
    simp only
    rw [if_neg, if_pos hq]
    rintro rfl
    rcases hq with h | h <;> norm_num at h

/-- C28 is false for the upper tail of *every* physical table: whatever the table and quantile, the
kept rows end strictly before the last row and the area dropped above them is strictly more than
the requested fraction `q`. -/
theorem C28_upper_tail_counterexample (t : List (K × K)) (hp : Physical t) (hs : (t.map (·.1)).Pairwise (· < ·))
    (harea : area t ≠ 0) (q : K) (h0 : 0 < q) (h1 : q < 1 / 2) :
    ∃ lower upper, Passband.trim t (some q) = .ok ((t.take (upper + 1)).drop lower) ∧ upper + 1 < t.length ∧
      q * area t < area (t.drop upper) := by
  have hsteps : Steps (fun g => 0 < g) (t.map (·.1)) := by
    rw [← List.isChain_iff_pairwise] at hs
    exact hs.imp (fun a b hab => by linarith)
  obtain ⟨lower, upper, e1, _, _, e4, e5, _, _⟩ := trim_rows t q h0 h1 (fun p h => (hp p h).2) hsteps harea
  refine ⟨lower, upper, e1, e4, ?_⟩
  have h := area_split t upper
  linarith

/-- A table meeting the hypotheses of the C28 theorems. -/
example : Physical ([(1, 0), (2, 1), (3, 1), (4, 0)] : List (ℚ × ℚ)) ∧
    area ([(1, 0), (2, 1), (3, 1), (4, 0)] : List (ℚ × ℚ)) ≠ 0 := by
  refine ⟨?_, ?_⟩
  · intro p hp
    simp only [List.mem_cons, List.not_mem_nil, or_false] at hp
    rcases hp with rfl | rfl | rfl | rfl <;> norm_num
  · norm_num [area]

end LCL.PassbandProps
