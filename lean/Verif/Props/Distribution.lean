import Verif.Props.Samplers3

/-!
# Property C57: `DistributionSampler`
-/

namespace LCL.DistProps
open LCL LCL.GraphSpec LCL.GraphLemmas LCL.SamplerSpec LCL.SamplerProps
variable {σ ρ : Type} {K : Type} [Field K] [LinearOrder K] [IsStrictOrderedRing K]

/-- The tabulated cumulative distribution at the `i`-th point: the share of the density tabulated
up to and including it. -/
def cumulative (y : List K) (i : Nat) : K := (y.take (i + 1)).sum / y.sum

/-- The piecewise linear cumulative distribution through the tabulated points. -/
noncomputable def distribution (x y : List K) (t : K) : K :=
  interpAt x ((List.range y.length).map (cumulative y)) t

theorem knots_eq (y : List K) (total : K) (h : (cumsum y).getLast? = some total) :
    (cumsum y).map (· / total) = (List.range y.length).map (cumulative y) := by
  have hlen : (cumsum y).length = y.length := by unfold cumsum; simp
  have hpos : 0 < y.length := by
    rw [← hlen]; cases hc : cumsum y with
    | nil => rw [hc] at h; simp at h
    | cons a l => simp
  have ht : total = y.sum := by
    rw [List.getLast?_eq_getElem?, hlen, cumsum_getElem? y _ (by omega)] at h
    cases h
    rw [List.take_of_length_le (by omega)]
  apply List.ext_getElem?
  intro i
  by_cases hi : i < y.length
  · rw [List.getElem?_map, cumsum_getElem? y i hi, List.getElem?_map, List.getElem?_range hi]
    simp [cumulative, ht]
  · rw [List.getElem?_eq_none (by simpa [hlen] using hi), List.getElem?_eq_none (by simpa using hi)]

/-- What a successful construction provides. -/
theorem init_ok {x y : List K} {cdf xs : List K} (h : DistSampler.init x y = .ok (cdf, xs)) :
    xs = x ∧ x.length = y.length ∧ (∀ v ∈ y, 0 ≤ v) ∧ 0 < y.sum ∧ cdf = (List.range y.length).map (cumulative y) := by
  unfold DistSampler.init at h
  split at h
  · cases h
  · rename_i hl
    split at h
    · cases h
    · rename_i hneg
      split at h
      · cases h
      · rename_i total ht
        split at h
        · cases h
        · rename_i hz
          cases h
          have hn : ∀ v ∈ y, 0 ≤ v := by
            intro v hv
            by_contra hc
            apply hneg
            rw [List.any_eq_true]
            exact ⟨v, hv, by simpa using hc⟩
          have hlen : (cumsum y).length = y.length := by unfold cumsum; simp
          have hpos : 0 < y.length := by
            rw [← hlen]; cases hc : cumsum y with
            | nil => rw [hc] at ht; simp at ht
            | cons a l => simp
          have hts : total = y.sum := by
            have h2 := ht
            rw [List.getLast?_eq_getElem?, hlen, cumsum_getElem? y _ (by omega)] at h2
            cases h2
            rw [List.take_of_length_le (by omega)]
          refine ⟨rfl, not_not.1 hl, hn, ?_, knots_eq y total ht⟩
          rw [← hts]
          rcases lt_or_eq_of_le (show 0 ≤ total by rw [hts]; exact List.sum_nonneg hn) with h | h
          · exact h
          · exact absurd h.symm hz

theorem cumulative_mono {y : List K} (hy : ∀ v ∈ y, 0 ≤ v) (hs : 0 < y.sum) {i j : Nat} (h : i ≤ j) :
    cumulative y i ≤ cumulative y j :=
  div_le_div_of_nonneg_right (sum_take_mono y hy (by omega)) hs.le

theorem cdf_sorted {y : List K} (hy : ∀ v ∈ y, 0 ≤ v) (hs : 0 < y.sum) :
    ((List.range y.length).map (cumulative y)).Pairwise (· ≤ ·) := by
  rw [List.pairwise_map]
  exact (List.pairwise_lt_range (n := y.length)).imp (fun h => cumulative_mono hy hs h.le)

theorem cdf_head {y : List K} (hne : y ≠ []) :
    ((List.range y.length).map (cumulative y)).head? = some (cumulative y 0) := by
  cases y with
  | nil => exact absurd rfl hne
  | cons a l => simp [List.range_succ_eq_map]

theorem cdf_last {y : List K} (hne : y ≠ []) (hs : 0 < y.sum) :
    ((List.range y.length).map (cumulative y)).getLast? = some 1 := by
  have hpos := List.length_pos_iff.2 hne
  rw [List.getLast?_eq_getElem?, List.length_map, List.length_range, List.getElem?_map,
    List.getElem?_range (by omega)]
  simp only [Option.map_some, cumulative, Option.some.injEq]
  rw [List.take_of_length_le (by omega), div_self hs.ne']

theorem sum_pos_ne {y : List K} (hs : 0 < y.sum) : y ≠ [] := by rintro rfl; simp at hs

theorem sample_eq {y : List K} (hs : 0 < y.sum) (x : List K) (u : K) (h0 : cumulative y 0 ≤ u) (h1 : u ≤ 1) :
    DistSampler.sample ((List.range y.length).map (cumulative y)) x u =
      .ok (interpAt ((List.range y.length).map (cumulative y)) x u) := by
  unfold DistSampler.sample
  rw [cdf_head (sum_pos_ne hs), cdf_last (sum_pos_ne hs) hs]
  simp [not_lt.2 h0, not_lt.2 h1]

/-- C57, for draws not below the first point's share. For every accepted table with increasing
points, the sample of a draw `u` is within the support, is monotone in `u`, and its cumulative
distribution is the tabulated one: the sample is at most `t` only if `u` is at most the
distribution at `t`, and is at most `t` whenever `u` is below the distribution at `t` (so a uniform
`u` conditioned to this range has exactly that law); at the `i`-th share it gives the `i`-th point
or beyond (flat stretches are skipped). The distribution takes the tabulated share at each tabulated
point. Missing: draws below the first share, see `C57_first_share_counterexample`; and the samplers
built on scipy's `NumericalInversePolynomial`, which are not modelled. -/
theorem C57_distribution_partial (x y cdf xs : List K) (h : DistSampler.init x y = .ok (cdf, xs))
    (hx : x.Pairwise (· < ·)) :
    (∀ u : K, cumulative y 0 ≤ u → u ≤ 1 → ∃ v, DistSampler.sample cdf xs u = .ok v ∧
      (∀ lo hi, x.head? = some lo → x.getLast? = some hi → lo ≤ v ∧ v ≤ hi) ∧
      (∀ u' v', u ≤ u' → DistSampler.sample cdf xs u' = .ok v' → v ≤ v') ∧
      distribution x y v = u ∧
      ∀ t, (∀ lo, x.head? = some lo → lo ≤ t) → (v ≤ t → u ≤ distribution x y t) ∧ (u < distribution x y t → v ≤ t)) ∧
    ∀ (i : Nat) xi, x[i]? = some xi → distribution x y xi = cumulative y i := by
  obtain ⟨rfl, hlen, hy, hs, rfl⟩ := init_ok h
  have hne := sum_pos_ne hs
  have hcl : ((List.range y.length).map (cumulative y)).length = xs.length := by simp [hlen]
  have hxle : xs.Pairwise (· ≤ ·) := hx.imp (fun h => h.le)
  have hxne : xs ≠ [] := by
    intro h0; rw [h0] at hlen; exact hne (List.length_eq_zero_iff.1 hlen.symm)
  have hbound : ∀ u : K, cumulative y 0 ≤ u → ∀ lo hi, xs.head? = some lo → xs.getLast? = some hi →
      lo ≤ interpAt ((List.range y.length).map (cumulative y)) xs u ∧
      interpAt ((List.range y.length).map (cumulative y)) xs u ≤ hi := by
    intro u h0 lo hi hlo hhi
    refine interpAt_bounds _ _ u hcl hxne ?_ ?_
    · intro c hc; rw [cdf_head hne] at hc; cases hc; exact h0
    · intro z hz
      constructor
      · cases xs with
        | nil => simp at hz
        | cons a l =>
          simp at hlo; subst hlo
          rcases List.mem_cons.1 hz with rfl | hm
          · exact le_rfl
          · exact (List.pairwise_cons.1 hxle).1 z hm
      · obtain ⟨pre, rfl⟩ : ∃ pre, xs = pre ++ [hi] := by
          rw [List.getLast?_eq_some_iff] at hhi; exact hhi
        rcases List.mem_append.1 hz with hm | hm
        · exact (List.pairwise_append.1 hxle).2.2 z hm hi (by simp)
        · simp at hm; exact hm.le
  constructor
  · intro u h0 h1
    have hinv : distribution xs y (interpAt ((List.range y.length).map (cumulative y)) xs u) = u := by
      unfold distribution
      refine interpAt_inverse _ xs u hcl hx ?_ ?_ ?_
      · intro c hc; rw [cdf_head hne] at hc; cases hc; exact h0
      · intro c hc; rw [cdf_last hne hs] at hc; cases hc; exact h1
      · simp [hne]
    have hmono : ∀ a b : K, (∀ lo, xs.head? = some lo → lo ≤ a) → a ≤ b → distribution xs y a ≤ distribution xs y b :=
      fun a b ha hab => interpAt_mono xs _ a b hcl.symm (cdf_sorted hy hs) ha hab
    refine ⟨_, sample_eq hs xs u h0 h1, hbound u h0, ?_, hinv, ?_⟩
    · intro u' v' huu hv
      have h1' : u' ≤ 1 := by
        by_contra hc
        unfold DistSampler.sample at hv
        rw [cdf_head hne, cdf_last hne hs] at hv
        simp only at hv
        rw [if_pos (Or.inr (not_le.1 hc))] at hv
        cases hv
      rw [sample_eq hs xs u' (h0.trans huu) h1'] at hv
      cases hv
      exact interpAt_mono _ xs u u' hcl hxle (by intro c hc; rw [cdf_head hne] at hc; cases hc; exact h0) huu
    · intro t ht
      constructor
      · intro hvt
        rw [← hinv]
        refine hmono _ _ ?_ hvt
        intro lo hlo
        obtain ⟨hi, hhi⟩ : ∃ hi, xs.getLast? = some hi := by
          cases hg : xs.getLast? with
          | none => exact absurd (List.getLast?_eq_none_iff.1 hg) hxne
          | some hi => exact ⟨hi, rfl⟩
        exact (hbound u h0 lo hi hlo hhi).1
      · intro hut
        by_contra hc
        have := hmono t _ ht (not_le.1 hc).le
        rw [hinv] at this
        exact absurd hut (not_lt.2 this)
  · intro i xi hi
    have hil : i < y.length := by
      rw [← hlen]; exact (List.getElem?_eq_some_iff.1 hi).1
    exact interpAt_knot xs _ i xi _ hcl.symm hx hi (by rw [List.getElem?_map, List.getElem?_range hil]; rfl)

/-- C57 (rejections). Tables of unequal lengths and tables with a negative density are rejected. -/
theorem C57_invalid_raise (x y : List K) (h : x.length ≠ y.length ∨ ∃ v ∈ y, v < 0) :
    DistSampler.init x y = .error .valueError := by
  unfold DistSampler.init
  by_cases hl : x.length ≠ y.length
  · rw [if_pos hl]
  · rw [if_neg hl, if_pos]
    rcases h with h | ⟨v, hv, hn⟩
    · exact absurd h hl
    · rw [List.any_eq_true]; exact ⟨v, hv, by simpa using hn⟩

/-- C57 is false for draws below the first point's share, which occur whenever the first tabulated
density is not zero: for every accepted table with a positive first density there is a draw in
`[0, 1)` for which sampling raises. -/
theorem C57_first_share_counterexample (x : List K) (y0 : K) (y : List K) (hl : x.length = y.length + 1)
    (hy0 : 0 < y0) (hy : ∀ v ∈ y, 0 ≤ v) :
    ∃ cdf, DistSampler.init x (y0 :: y) = .ok (cdf, x) ∧
      ∃ u : K, 0 ≤ u ∧ u < 1 ∧ DistSampler.sample cdf x u = .error .valueError := by
  have hs : 0 < (y0 :: y).sum := by
    rw [List.sum_cons]; have := List.sum_nonneg hy; linarith
  have hall : ∀ v ∈ (y0 :: y), 0 ≤ v := by
    intro v hv; rcases List.mem_cons.1 hv with rfl | hm
    · exact hy0.le
    · exact hy v hm
  have hlast : (cumsum (y0 :: y)).getLast? = some (y0 :: y).sum := by
    have hlen : (cumsum (y0 :: y)).length = (y0 :: y).length := by unfold cumsum; simp
    rw [List.getLast?_eq_getElem?, hlen, cumsum_getElem? _ _ (by simp)]
    rw [List.take_of_length_le (by simp)]
  refine ⟨(cumsum (y0 :: y)).map (· / (y0 :: y).sum), ?_, 0, le_rfl, zero_lt_one, ?_⟩
  · unfold DistSampler.init
    rw [if_neg (by simpa using hl), if_neg, hlast]
    · simp only [if_neg hs.ne']
    · intro hc
      rw [List.any_eq_true] at hc
      obtain ⟨v, hv, hn⟩ := hc
      exact absurd (hall v hv) (not_le.2 (by simpa using hn))
  · rw [knots_eq _ _ hlast]
    unfold DistSampler.sample
    rw [cdf_head (by simp), cdf_last (by simp) hs]
    simp only
    rw [if_pos]
    left
    unfold cumulative
    exact div_pos (by simpa using hy0) hs

/-- A table meeting the hypotheses of `C57_distribution_partial`. -/
example : ∃ cdf xs, DistSampler.init [(1 : ℚ), 2, 4] [0, 3, 1] = .ok (cdf, xs) ∧ [(1 : ℚ), 2, 4].Pairwise (· < ·) :=
  ⟨[0 / 4, 3 / 4, 4 / 4], [1, 2, 4], by simp [DistSampler.init, cumsum, cumFrom]; norm_num, by norm_num⟩

theorem mapM_eq_map {β γ : Type} (f : β → Except Err γ) (g : β → γ) : ∀ (l : List β),
    (∀ x ∈ l, f x = .ok (g x)) → l.mapM f = .ok (l.map g) := by
  intro l
  induction l with
  | nil => intro _; rfl
  | cons x l ih =>
    intro h
    rw [List.mapM_cons, h x (by simp), ih (fun z hz => h z (List.mem_cons_of_mem _ hz))]
    rfl

/-- C57 (the node). When every draw lies in the covered range, `compute` stores (unless fixed) one
value per sample, the inverse transform of that sample's own draw. -/
theorem C57_compute_partial (G : UnitGen ρ K) (nd : PNode K σ) (out : Name) (hout : nd.outputs = [out])
    (hd1 : '.' ∉ nd.str) (hd2 : '.' ∉ out) (x y cdf xs : List K)
    (h : DistSampler.init x y = .ok (cdf, xs)) (s : GState K) (hs : Reachable s) (r : ρ)
    (hu : ∀ u ∈ (G.draw r s.numSamples).2, cumulative y 0 ≤ u) :
    ∃ r' s' res, DistSampler.compute G nd cdf xs r s = (r', s', .ok res) ∧
      (rowsOf s.numSamples res).length = s.numSamples ∧
      (isFixed s nd.str out ∨ readParam s' nd.str out = some res) ∧
      ∀ k, k < s.numSamples → ∃ u v, (G.draw r s.numSamples).2[k]? = some u ∧
        DistSampler.sample cdf xs u = .ok v ∧ sampleAt s.numSamples res k = some (.scalar v) := by
  obtain ⟨rfl, hlen, hy, hsum, rfl⟩ := init_ok h
  set cdf := (List.range y.length).map (cumulative y) with hcdf
  have hmap : (G.draw r s.numSamples).2.mapM (DistSampler.sample cdf xs) =
      .ok ((G.draw r s.numSamples).2.map (interpAt cdf xs)) :=
    mapM_eq_map _ _ _ (fun u hm => sample_eq hsum xs u (hu u hm) (G.lt_one _ _ u hm).le)
  have l1 : (((G.draw r s.numSamples).2.map (interpAt cdf xs)).map (fun v => (.scalar v : Val K))).length = s.numSamples := by
    rw [List.length_map, List.length_map, G.length]
  obtain ⟨s', e1, e2, _⟩ := save_one nd out hout hd1 hd2 s hs _ (packed_fits l1).1 (packed_fits l1).2
  refine ⟨(G.draw r s.numSamples).1, s', _, ?_, (packed_fits l1).1, e2, ?_⟩
  · unfold DistSampler.compute
    simp only [hmap, e1]
  · intro k hk
    have hk1 : k < (G.draw r s.numSamples).2.length := by rw [G.length]; exact hk
    refine ⟨_, _, List.getElem?_eq_getElem hk1,
      sample_eq hsum xs _ (hu _ (List.getElem_mem _)) (G.lt_one _ _ _ (List.getElem_mem _)).le, ?_⟩
    unfold sampleAt
    rw [packed_rows l1, List.getElem?_map, List.getElem?_map, List.getElem?_eq_getElem hk1]; rfl

end LCL.DistProps
