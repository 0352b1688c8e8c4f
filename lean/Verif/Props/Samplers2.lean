import Verif.Props.Samplers1
import Verif.Model.Samplers2

/-!
# Property C22: choice samplers
-/

namespace LCL.SamplerProps
open LCL LCL.GraphSpec LCL.GraphLemmas LCL.NodeSpec LCL.NodeLemmas LCL.SamplerSpec LCL.ComputeProps
variable {K : Type} [Field K] [LinearOrder K] [IsStrictOrderedRing K] {α σ ρ : Type}

theorem packed_rows {n : Nat} {l : List (Val α)} (hl : l.length = n) : rowsOf n (packed n l) = l := by
  unfold rowsOf packed
  by_cases hn : n = 1
  · simp only [hn, if_true]
    match l, hl with
    | [v], _ => rfl
    | [], h => simp at h; omega
    | _ :: _ :: _, h => simp at h; omega
  · simp [hn, cells]

theorem packed_fits {n : Nat} {l : List (Val α)} (hl : l.length = n) : Fits n (packed n l) := by
  refine ⟨by rw [packed_rows hl, hl], ?_⟩
  intro hn; exact ⟨l, by simp [packed, hn]⟩

/-- Two stored parameters agree everywhere except possibly at one not fixed parameter. -/
def OnlyChanges (s s' : GState α) (node param : Name) : Prop :=
  ∀ m p, ((m, p) ≠ (node, param) ∨ isFixed s m p) → readParam s' m p = readParam s m p

/-- C22 (`BinarySampler`). A probability outside `[0, 1]` is rejected; otherwise `compute` stores
(unless fixed) and returns one boolean per sample, true exactly when that sample's draw is below
the probability. -/
theorem C22_binary (G : UnitGen ρ K) (nd : PNode Bool σ) (o : Name) (ho : nd.outputs = [o]) (hd1 : '.' ∉ nd.str)
    (hd2 : '.' ∉ o) (p : K) (s : GState Bool) (hs : Reachable s) (r : ρ) :
    ((p < 0 ∨ 1 < p) → BinarySampler.init p = .error .valueError) ∧
    (0 ≤ p → p ≤ 1 → BinarySampler.init p = .ok p) ∧
    ∃ v s', BinarySampler.compute G nd p r s = ((G.draw r s.numSamples).1, s', .ok v) ∧
      (rowsOf s.numSamples v).length = s.numSamples ∧
      (∀ (k : Nat) (u : K), (G.draw r s.numSamples).2[k]? = some u →
        ∃ b, sampleAt s.numSamples v k = some (.scalar b) ∧ (b = true ↔ u < p)) ∧
      (isFixed s nd.str o ∨ readParam s' nd.str o = some v) ∧ OnlyChanges s s' nd.str o := by
  refine ⟨?_, ?_, ?_⟩
  · intro h; unfold BinarySampler.init; rw [if_pos]; exact h
  · intro h1 h2; unfold BinarySampler.init; rw [if_neg]; push Not; exact ⟨h1, h2⟩
  · have hl : ((G.draw r s.numSamples).2.map fun u => (.scalar (decide (u < p)) : Val Bool)).length = s.numSamples := by
      rw [List.length_map, G.length]
    obtain ⟨s', e1, e2, e3⟩ := save_one nd o ho hd1 hd2 s hs _ (packed_fits hl).1 (packed_fits hl).2
    refine ⟨_, s', ?_, (packed_fits hl).1, ?_, e2, e3⟩
    · unfold BinarySampler.compute; simp only [e1]
    · intro k u hk
      refine ⟨decide (u < p), ?_, by simp⟩
      unfold sampleAt
      rw [packed_rows hl, List.getElem?_map, hk]; rfl

/-- Consequences at the ends: probability 0 is never true, probability 1 always. -/
theorem C22_binary_extremes (G : UnitGen ρ K) (nd : PNode Bool σ) (o : Name) (ho : nd.outputs = [o])
    (hd1 : '.' ∉ nd.str) (hd2 : '.' ∉ o) (s : GState Bool) (hs : Reachable s) (r : ρ) (b : Bool) :
    ∃ v s', BinarySampler.compute G nd (if b then 1 else 0) r s = ((G.draw r s.numSamples).1, s', .ok v) ∧
      ∀ k, k < s.numSamples → sampleAt s.numSamples v k = some (.scalar b) := by
  obtain ⟨_, _, v, s', h1, _, h3, _⟩ := C22_binary G nd o ho hd1 hd2 (if b then 1 else 0) s hs r
  refine ⟨v, s', h1, ?_⟩
  intro k hk
  have hk' : k < (G.draw r s.numSamples).2.length := by rw [G.length]; exact hk
  obtain ⟨c, e1, e2⟩ := h3 k _ (List.getElem?_eq_getElem hk')
  rw [e1]
  have hm := List.getElem_mem hk'
  cases b with
  | true =>
    have : c = true := e2.2 (by simpa using G.lt_one r _ _ hm)
    rw [this]
  | false =>
    cases c with
    | false => rfl
    | true =>
      have := e2.1 rfl
      simp only [Bool.false_eq_true, if_false] at this
      exact absurd (G.nonneg r _ _ hm) (not_le.2 this)

/-- How the probabilities are formed. -/
theorem init_floats (values : List (Val α)) (w : List K) (v : ValueSampler K α)
    (h : ValueSampler.init values (.floats w) = .ok v) :
    v.values = values ∧ w.length = values.length ∧ values ≠ [] ∧
      v.probs = some (if w.sum = 0 then none else some (w.map fun x => x / w.sum)) := by
  unfold ValueSampler.init at h
  split at h
  · cases h
  · rename_i hv
    simp only at h
    split at h
    · cases h
    · rename_i hl
      cases h
      exact ⟨rfl, by simpa using hl, by rintro rfl; simp at hv, rfl⟩

/-- C22 (weights). Weights of the wrong length, and an empty option list, are rejected; float
weights with a non-zero sum are normalised to sum to one, in proportion. -/
theorem C22_weights_normalised (values : List (Val α)) (w : List K) :
    ((values = [] ∨ w.length ≠ values.length) → ValueSampler.init values (.floats w) = .error .valueError) ∧
    (values ≠ [] → w.length = values.length → w.sum ≠ 0 →
      ∃ p, ValueSampler.init values (.floats w) = .ok ⟨values, some (some p)⟩ ∧ p.sum = 1 ∧ p.length = values.length ∧
        ∀ (i : Nat) (x : K), w[i]? = some x → ∃ y, p[i]? = some y ∧ y * w.sum = x) := by
  constructor
  · intro h
    unfold ValueSampler.init
    rcases h with h | h
    · simp [h]
    · by_cases hv : values.length = 0
      · simp [hv]
      · simp [hv, h]
  · intro h1 h2 h3
    refine ⟨w.map fun x => x / w.sum, ?_, ?_, by simpa using h2, ?_⟩
    · unfold ValueSampler.init
      have : values.length ≠ 0 := by intro h; exact h1 (List.eq_nil_of_length_eq_zero h)
      simp [this, h2, h3]
    · have : (w.map fun x => x / w.sum).sum = w.sum / w.sum := by
        exact sum_map_div w _
      rw [this, div_self h3]
    · intro i x hx
      exact ⟨x / w.sum, by rw [List.getElem?_map, hx]; rfl, div_mul_cancel₀ x h3⟩

omit [LinearOrder K] [IsStrictOrderedRing K] in
theorem cumsum_getD (p : List K) (i : Nat) (x : K) (h : (cumsum p)[i]? = some x) : x = (p.take (i + 1)).sum := by
  have hi : i < p.length := by
    have := (List.getElem?_eq_some_iff.1 h).1
    simpa [cumsum] using this
  rw [cumsum_getElem? p i hi] at h
  exact (Option.some.inj h).symm

/-- Inverting the cumulative sum of non-negative numbers at `0 ≤ u <` their sum. -/
theorem searchRight_spec (p : List K) (hp : ∀ x ∈ p, 0 ≤ x) (u : K) (hu0 : 0 ≤ u) (hu : u < p.sum) :
    searchRight (cumsum p) u < p.length ∧
    ∀ i, i < p.length → (searchRight (cumsum p) u = i ↔ (p.take i).sum ≤ u ∧ u < (p.take (i + 1)).sum) := by
  have hchar : ∀ i, i < p.length → (searchRight (cumsum p) u = i ↔ (p.take i).sum ≤ u ∧ u < (p.take (i + 1)).sum) := by
    intro i hi
    unfold searchRight
    rw [takeWhile_length_iff _ _ i (by simpa [cumsum] using hi)]
    constructor
    · rintro ⟨h1, h2⟩
      constructor
      · cases i with
        | zero => simpa using hu0
        | succ i =>
          have := h1 i _ (by omega) (cumsum_getElem? p i (by omega))
          simpa using this
      · have := h2 _ (cumsum_getElem? p i hi)
        simpa using this
    · rintro ⟨h1, h2⟩
      constructor
      · intro j x hj hx
        rw [cumsum_getD p j x hx]
        have := sum_take_mono p hp (show j + 1 ≤ i by omega)
        simpa using le_trans this h1
      · intro x hx
        rw [cumsum_getD p i x hx]
        simpa using h2
  refine ⟨?_, hchar⟩
  have hle : searchRight (cumsum p) u ≤ p.length := by
    unfold searchRight
    have := (List.takeWhile_prefix (fun x => decide (x ≤ u)) (l := cumsum p)).length_le
    simpa [cumsum] using this
  rcases Nat.lt_or_eq_of_le hle with h | h
  · exact h
  · exfalso
    -- all cumulative sums are ≤ u, also the last
    have hne : p ≠ [] := by rintro rfl; simp at hu; exact absurd hu0 (not_le.2 hu)
    have hlast : p.length - 1 < p.length := by
      have : 0 < p.length := List.length_pos_iff.2 hne
      omega
    have hall : (cumsum p).takeWhile (fun x => decide (x ≤ u)) = cumsum p := by
      apply (List.takeWhile_prefix _).eq_of_length
      unfold searchRight at h; rw [h]; simp [cumsum]
    have hmem : (p.take p.length).sum ∈ (cumsum p).takeWhile (fun x => decide (x ≤ u)) := by
      rw [hall]
      have := cumsum_getElem? p (p.length - 1) hlast
      rw [show p.length - 1 + 1 = p.length by omega] at this
      exact List.mem_of_getElem? this
    have := mem_takeWhile_pred hmem
    simp at this
    exact absurd hu (not_lt.2 this)

/-- C22 (weighted choice). With non-negative float weights (not all zero) `compute` stores and
returns one option per sample: for the draw `u` of that sample, the option `i` with
`w₀ + … + wᵢ₋₁ ≤ u · Σw < w₀ + … + wᵢ` — so option `i` has probability `wᵢ / Σw`, and options of
weight zero are never returned. -/
theorem C22_weighted_choice (GI : IntGen ρ) (G : UnitGen ρ K) (nd : PNode α σ) (o : Name) (ho : nd.outputs = [o])
    (hd1 : '.' ∉ nd.str) (hd2 : '.' ∉ o) (values : List (Val α)) (w : List K) (vs : ValueSampler K α)
    (hinit : ValueSampler.init values (.floats w) = .ok vs) (hw : ∀ x ∈ w, 0 ≤ x) (hsum : w.sum ≠ 0)
    (s : GState α) (hs : Reachable s) (r : ρ) :
    ∃ v s', vs.compute GI G nd r s = ((G.draw r s.numSamples).1, s', .ok v) ∧
      (rowsOf s.numSamples v).length = s.numSamples ∧
      (∀ (k : Nat) (u : K), (G.draw r s.numSamples).2[k]? = some u →
        ∃ (i : Nat) (opt : Val α) (x : K), values[i]? = some opt ∧ sampleAt s.numSamples v k = some opt ∧
          w[i]? = some x ∧ 0 < x ∧ (w.take i).sum ≤ u * w.sum ∧ u * w.sum < (w.take i).sum + x) ∧
      (isFixed s nd.str o ∨ readParam s' nd.str o = some v) ∧ OnlyChanges s s' nd.str o := by
  obtain ⟨e1, e2, e3, e4⟩ := init_floats values w vs hinit
  have hpos : 0 < w.sum := by
    refine lt_of_le_of_ne ?_ (Ne.symm hsum)
    have := sum_take_mono w hw (Nat.zero_le w.length)
    simpa using this
  set p := w.map fun x => x / w.sum with hp
  have hpn : ∀ x ∈ p, 0 ≤ x := by
    intro x hx
    obtain ⟨y, hy, rfl⟩ := List.mem_map.1 hx
    exact div_nonneg (hw y hy) hpos.le
  have htake : ∀ i, (p.take i).sum = (w.take i).sum / w.sum := by
    intro i
    rw [hp, ← List.map_take]
    exact sum_map_div _ _
  have hone : p.sum = 1 := by
    have := htake w.length
    rw [List.take_of_length_le (by rw [hp]; simp), List.take_length, div_self hsum] at this
    exact this
  have hany : p.any (fun x => decide (x < 0)) = false := by
    rw [List.any_eq_false]
    intro x hx; simpa using hpn x hx
  set us := (G.draw r s.numSamples).2 with hus
  have hidx : ∀ u ∈ us, searchRight (cumsum p) u < vs.values.length ∧
      ∃ (i : Nat) (opt : Val α) (x : K), searchRight (cumsum p) u = i ∧ values[i]? = some opt ∧ w[i]? = some x ∧ 0 < x ∧
        (w.take i).sum ≤ u * w.sum ∧ u * w.sum < (w.take i).sum + x := by
    intro u hu
    obtain ⟨h1, h2⟩ := searchRight_spec p hpn u (G.nonneg r _ u hu) (by rw [hone]; exact G.lt_one r _ u hu)
    have hlt : searchRight (cumsum p) u < w.length := by simpa [hp] using h1
    obtain ⟨h3, h4⟩ := (h2 _ h1).1 rfl
    rw [htake] at h3 h4
    have hvl : searchRight (cumsum p) u < values.length := by omega
    refine ⟨by rw [e1]; exact hvl, _, values[searchRight (cumsum p) u], w[searchRight (cumsum p) u], rfl,
      List.getElem?_eq_getElem hvl, List.getElem?_eq_getElem hlt, ?_, ?_, ?_⟩
    · rw [List.sum_take_succ w _ hlt, add_div] at h4
      have h5 : 0 < w[searchRight (cumsum p) u] / w.sum := by linarith
      exact (div_pos_iff_of_pos_right hpos).1 h5
    · rwa [div_le_iff₀ hpos] at h3
    · rw [lt_div_iff₀ hpos, List.sum_take_succ w _ hlt] at h4
      exact h4
  obtain ⟨l, f1, f2, f3⟩ := mapM_index vs.values (us.map fun u => searchRight (cumsum p) u) (by
    intro i hi
    obtain ⟨u, hu, rfl⟩ := List.mem_map.1 hi
    exact (hidx u hu).1)
  have hl : l.length = s.numSamples := by rw [f2, List.length_map, hus, G.length]
  obtain ⟨s', g1, g2, g3⟩ := save_one nd o ho hd1 hd2 s hs _ (packed_fits hl).1 (packed_fits hl).2
  refine ⟨_, s', ?_, (packed_fits hl).1, ?_, g2, g3⟩
  · unfold ValueSampler.compute choiceInds
    rw [e4, if_neg hsum]
    simp only [← hp, hany, Bool.false_eq_true, if_false, hone, ne_eq, not_true_eq_false, ← hus, f1, g1]
  · intro k u hk
    obtain ⟨_, i, opt, x, h1, h2, h3, h4, h5, h6⟩ := hidx u (List.mem_of_getElem? hk)
    refine ⟨i, opt, x, h2, ?_, h3, h4, h5, h6⟩
    unfold sampleAt
    rw [packed_rows hl, f3 k i (by rw [List.getElem?_map, hk]; simp [h1]), e1, h2]

/-- C22 (invalid weights). A negative weight with a positive sum, or weights summing to zero, make
every `compute` raise `ValueError`, leaving the state and the generator as they were. -/
theorem C22_invalid_weights_raise (GI : IntGen ρ) (G : UnitGen ρ K) (nd : PNode α σ) (values : List (Val α))
    (w : List K) (vs : ValueSampler K α) (hinit : ValueSampler.init values (.floats w) = .ok vs)
    (hbad : w.sum = 0 ∨ (0 < w.sum ∧ ∃ x ∈ w, x < 0)) (s : GState α) (r : ρ) :
    vs.compute GI G nd r s = (r, s, .error .valueError) := by
  obtain ⟨_, _, _, e4⟩ := init_floats values w vs hinit
  unfold ValueSampler.compute choiceInds
  rw [e4]
  rcases hbad with h | ⟨h, x, hx, hneg⟩
  · simp [h]
  · rw [if_neg (ne_of_gt h)]
    have : (w.map fun x => x / w.sum).any (fun x => decide (x < 0)) = true := by
      rw [List.any_eq_true]
      exact ⟨x / w.sum, List.mem_map.2 ⟨x, hx, rfl⟩, by simpa using div_neg_of_neg_of_pos hneg h⟩
    simp only [this, if_true]

/-- C22 (unweighted choice). Without weights each sample is one of the options. -/
theorem C22_unweighted_choice (GI : IntGen ρ) (G : UnitGen ρ K) (nd : PNode α σ) (o : Name) (ho : nd.outputs = [o])
    (hd1 : '.' ∉ nd.str) (hd2 : '.' ∉ o) (values : List (Val α)) (vs : ValueSampler K α)
    (hinit : ValueSampler.init values (.absent : Weights K) = .ok vs) (s : GState α) (hs : Reachable s) (r : ρ) :
    ∃ v s' r', vs.compute GI G nd r s = (r', s', .ok v) ∧ (rowsOf s.numSamples v).length = s.numSamples ∧
      (∀ k, k < s.numSamples → ∃ opt ∈ values, sampleAt s.numSamples v k = some opt) ∧
      (isFixed s nd.str o ∨ readParam s' nd.str o = some v) ∧ OnlyChanges s s' nd.str o := by
  have hv : vs = ⟨values, none⟩ ∧ 0 < values.length := by
    unfold ValueSampler.init at hinit
    split at hinit
    · cases hinit
    · cases hinit; exact ⟨rfl, by omega⟩
  obtain ⟨rfl, hpos⟩ := hv
  obtain ⟨l, f1, f2, f3⟩ := mapM_index values (GI.draw r values.length s.numSamples).2 (GI.lt r _ _ hpos)
  have hl : l.length = s.numSamples := by rw [f2, GI.length]
  obtain ⟨s', g1, g2, g3⟩ := save_one nd o ho hd1 hd2 s hs _ (packed_fits hl).1 (packed_fits hl).2
  refine ⟨_, s', (GI.draw r values.length s.numSamples).1, ?_, (packed_fits hl).1, ?_, g2, g3⟩
  · unfold ValueSampler.compute choiceInds
    simp only [f1, g1]
  · intro k hk
    have hk' : k < (GI.draw r values.length s.numSamples).2.length := by rw [GI.length]; exact hk
    have h1 := f3 k _ (List.getElem?_eq_getElem hk')
    have h2 := GI.lt r _ _ hpos _ (List.getElem_mem hk')
    refine ⟨values[(GI.draw r values.length s.numSamples).2[k]], List.getElem_mem h2, ?_⟩
    unfold sampleAt
    rw [packed_rows hl, h1, List.getElem?_eq_getElem h2]

omit [IsStrictOrderedRing K] in
/-- C22 is false of integer weights: a valid list of integer weights is rejected when the sampler
is built (the in-place division of an integer array raises), whatever the options. -/
theorem C22_integer_weights_counterexample (values : List (Val α)) (w : List Int) :
    ∀ vs : ValueSampler K α, ValueSampler.init values (.ints w) ≠ .ok vs := by
  intro vs h
  unfold ValueSampler.init at h
  split at h
  · cases h
  · simp only at h
    split at h <;> cases h

theorem mapM_nat (values : List (Val α)) : ∀ (l : List Int), (∀ i ∈ l, 0 ≤ i ∧ i < values.length) →
    ∃ vs, l.mapM (fun i => values[i.toNat]?) = some vs ∧ vs.length = l.length ∧
      ∀ (k : Nat) (i : Int), l[k]? = some i → vs[k]? = values[i.toNat]? := by
  intro l
  induction l with
  | nil => intro _; exact ⟨[], rfl, rfl, by simp⟩
  | cons i l ih =>
    intro h
    obtain ⟨vs, h1, h2, h3⟩ := ih (fun j hj => h j (List.mem_cons_of_mem _ hj))
    obtain ⟨ha, hb⟩ := h i (by simp)
    have hi : i.toNat < values.length := by omega
    refine ⟨values[i.toNat] :: vs, ?_, by simp [h2], ?_⟩
    · rw [List.mapM_cons, List.getElem?_eq_getElem hi, h1]; rfl
    · intro k j hk
      cases k with
      | zero => simp at hk; subst hk; simp [hi]
      | succ k => simp at hk; simpa using h3 k j hk

/-- C22 (`GivenValueSelector`). An index array with an entry outside the option list raises
`IndexError` (also for negative entries, which numpy would accept); otherwise each result is the
option at that index. A single index likewise. -/
theorem C22_selector (values : List (Val α)) :
    (∀ l : List Int, (∃ i ∈ l, i < 0 ∨ (values.length : Int) ≤ i) → selectValue values (.many l) = .error .indexError) ∧
    (∀ l : List Int, (∀ i ∈ l, 0 ≤ i ∧ i < values.length) →
      ∃ vs, selectValue values (.many l) = .ok (.arr vs) ∧ vs.length = l.length ∧
        ∀ (k : Nat) (i : Int), l[k]? = some i → ∃ opt, values[i.toNat]? = some opt ∧ vs[k]? = some opt) ∧
    (∀ i : Int, (i < 0 ∨ (values.length : Int) ≤ i) → selectValue values (.one i) = .error .indexError) ∧
    (∀ i : Int, 0 ≤ i → i < values.length → ∃ opt, values[i.toNat]? = some opt ∧ selectValue values (.one i) = .ok opt) := by
  refine ⟨?_, ?_, ?_, ?_⟩
  · rintro l ⟨i, hi, h⟩
    unfold selectValue
    simp only
    rw [if_pos]
    rcases h with h | h
    · left; exact List.any_eq_true.2 ⟨i, hi, by simpa using h⟩
    · right; exact List.any_eq_true.2 ⟨i, hi, by simpa using h⟩
  · intro l hl
    obtain ⟨vs, h1, h2, h3⟩ := mapM_nat values l hl
    refine ⟨vs, ?_, h2, ?_⟩
    · unfold selectValue
      simp only
      rw [if_neg, h1]
      simp only [List.any_eq_true, decide_eq_true_eq, not_or, not_exists, not_and, not_lt, ge_iff_le, not_le]
      exact ⟨fun i hi => (hl i hi).1, fun i hi => (hl i hi).2⟩
    · intro k i hk
      obtain ⟨ha, hb⟩ := hl i (List.mem_of_getElem? hk)
      have hi : i.toNat < values.length := by omega
      exact ⟨_, List.getElem?_eq_getElem hi, by rw [h3 k i hk, List.getElem?_eq_getElem hi]⟩
  · intro i h
    unfold selectValue
    simp only
    rw [if_pos]; exact h
  · intro i h1 h2
    have hi : i.toNat < values.length := by omega
    refine ⟨_, List.getElem?_eq_getElem hi, ?_⟩
    unfold selectValue
    simp only
    rw [if_neg (by omega), List.getElem?_eq_getElem hi]

/-- A generator over the rationals drawing one half every time. -/
def halfGen : UnitGen Unit ℚ := ⟨fun _ n => ((), List.replicate n (1 / 2)), by simp, by
    intro r n u hu; simp at hu; rw [hu.2]; norm_num, by
    intro r n u hu; simp at hu; rw [hu.2]; norm_num⟩

/-- The hypotheses of the weighted choice are met: weights 1/4, 0, 3/4 at the draw 1/2 give the last option. -/
example : ∃ vs, ValueSampler.init [(.scalar 4 : Val Nat), .scalar 5, .scalar 6] (.floats [(1 / 2 : ℚ), 0, 3 / 2]) = .ok vs ∧
    ∃ s : GState Nat, GState.init 1 = .ok s ∧
      (vs.compute zeroGen halfGen (colNode [['a']]) () s).2.2 = .ok (.scalar 6) := by
  refine ⟨_, rfl, _, rfl, ?_⟩
  have hs : searchRight (cumsum ([(1 / 2 : ℚ), 0, 3 / 2].map fun x => x / [(1 / 2 : ℚ), 0, 3 / 2].sum)) (1 / 2) = 2 := by
    norm_num [searchRight, cumsum, cumFrom, List.takeWhile]
  have hsum : [(1 / 2 : ℚ), 0, 3 / 2].sum ≠ 0 := by norm_num
  have hany : ([(1 / 2 : ℚ), 0, 3 / 2].map fun x => x / [(1 / 2 : ℚ), 0, 3 / 2].sum).any (fun x => decide (x < 0)) = false := by
    norm_num
  have hone : ([(1 / 2 : ℚ), 0, 3 / 2].map fun x => x / [(1 / 2 : ℚ), 0, 3 / 2].sum).sum = 1 := by norm_num
  unfold ValueSampler.compute choiceInds
  simp only [hsum, if_false, hany, Bool.false_eq_true, hone, ne_eq, not_true_eq_false]
  simp only [halfGen, show Int.toNat 1 = 1 from rfl, List.replicate, List.map_cons, List.map_nil] at hs ⊢
  rw [hs]
  rfl

end LCL.SamplerProps
