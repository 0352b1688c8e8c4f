import Verif.Props.Samplers2
import Verif.Model.Samplers3

/-!
# Properties C23, C24, C25: sky position samplers
-/

namespace LCL.SkyProps
open LCL LCL.GraphSpec LCL.GraphLemmas LCL.SamplerSpec LCL.SamplerProps
variable {σ ρ : Type}

/-! ## Storing two coordinates -/

theorem save_radec {α : Type} (nd : PNode α σ) (hd1 : '.' ∉ nd.str) (s : GState α) (hs : Reachable s)
    (ra dec : Val α) (h1 : Fits s.numSamples ra) (h2 : Fits s.numSamples dec) :
    ∃ s', saveRaDec nd s ra dec = (s', none) ∧
      (isFixed s nd.str "ra".toList ∨ readParam s' nd.str "ra".toList = some ra) ∧
      (isFixed s nd.str "dec".toList ∨ readParam s' nd.str "dec".toList = some dec) := by
  have hout : ({ nd with outputs := ["ra".toList, "dec".toList] } : PNode α σ).outputs.length ≠ 1 := by simp
  obtain ⟨s', e1, e2, _⟩ := save_many { nd with outputs := ["ra".toList, "dec".toList] } hout (show ["ra".toList, "dec".toList].Nodup by decide) hd1
    (by intro o ho; simp only [List.mem_cons, List.not_mem_nil, or_false] at ho; rcases ho with rfl | rfl <;> decide)
    s hs [ra, dec] rfl (by intro v hv; simp at hv; rcases hv with rfl | rfl <;> assumption)
  refine ⟨s', ?_, e2 0 _ _ rfl rfl, e2 1 _ _ rfl rfl⟩
  unfold saveRaDec
  simp only [Heap.saveResultsS, Heap.saveAllS, List.length_cons, List.length_nil, ne_eq, not_true_eq_false, if_false,
    List.zip_cons_cons, List.zip_nil_left] at e1
  split
  · rename_i h; rw [h] at e1; simp at e1
  · rename_i s1 h; rw [h] at e1
    simp only at e1
    split at e1
    · rename_i h2; rw [h2]; exact e1
    · rename_i h2; rw [h2]; exact e1

/-! ## C23 -/

/-- `pixel` (at the given depth) contains the level-29 pixel `q`: each level splits a pixel `p`
into the four pixels `4p … 4p+3`. -/
def Descendant (depth pixel q : Nat) : Prop := q / 4 ^ (29 - depth) = pixel

theorem four_pow (d : Nat) : 2 ^ (2 * d) = 4 ^ d := by rw [pow_mul]; norm_num

theorem moc_bound {depth pixel : Nat} (hd : depth ≤ 29) (hp : pixel < 12 * 4 ^ depth) :
    (pixel + 1) * 4 ^ (29 - depth) ≤ 12 * 4 ^ 29 := by
  calc (pixel + 1) * 4 ^ (29 - depth) ≤ (12 * 4 ^ depth) * 4 ^ (29 - depth) := Nat.mul_le_mul_right _ hp
    _ = 12 * (4 ^ depth * 4 ^ (29 - depth)) := by rw [Nat.mul_assoc]
    _ = 12 * 4 ^ 29 := by rw [← pow_add, Nat.add_sub_cancel' hd]

theorem moc_range (depth : Nat) : mocRange depth = 4 ^ (29 - depth) := by
  unfold mocRange
  rw [Nat.shiftLeft_eq, one_mul, four_pow]
  apply Nat.mod_eq_of_lt
  calc 4 ^ (29 - depth) ≤ 4 ^ 29 := Nat.pow_le_pow_right (by norm_num) (Nat.sub_le _ _)
    _ < 2 ^ 64 := by norm_num

theorem moc29_eq {depth pixel offset : Nat} (hd : depth ≤ 29) (hp : pixel < 12 * 4 ^ depth)
    (ho : offset < 4 ^ (29 - depth)) : moc29 depth pixel offset = pixel * 4 ^ (29 - depth) + offset := by
  have hb := moc_bound hd hp
  have hbig : (12 : Nat) * 4 ^ 29 < 2 ^ 64 := by norm_num
  have h1 : pixel * 4 ^ (29 - depth) + 4 ^ (29 - depth) ≤ 12 * 4 ^ 29 := by
    rw [Nat.add_mul, one_mul] at hb; exact hb
  unfold moc29
  rw [Nat.shiftLeft_eq, four_pow]
  rw [Nat.mod_eq_of_lt (a := pixel * _) (by omega), Nat.mod_eq_of_lt (a := offset) (by omega)]
  exact Nat.mod_eq_of_lt (by omega)

/-- C23. For every valid depth and every coverage list of pixels of that depth, all generated
level-29 pixels are valid pixel numbers and descend from a pixel of the list, one per sample; no
64-bit arithmetic overflows. -/
theorem C23_inside (G : IntGen ρ) (depth : Int) (pixels : List Nat) (dp : Nat) (ps : List Nat)
    (hinit : MocSampler.init depth pixels = .ok (dp, ps)) (hvalid : ∀ p ∈ pixels, p < 12 * 4 ^ dp)
    (hne : pixels ≠ []) (r : ρ) (n : Nat) :
    ∃ r' qs, mocPixels G dp ps r n = (r', .ok qs) ∧ qs.length = n ∧
      ∀ q ∈ qs, q < 12 * 4 ^ 29 ∧ ∃ p ∈ pixels, Descendant dp p q := by
  have hi : dp ≤ 29 ∧ ps = pixels := by
    unfold MocSampler.init at hinit
    split at hinit
    · cases hinit
    · cases hinit; exact ⟨by omega, rfl⟩
  obtain ⟨hd, rfl⟩ := hi
  unfold mocPixels
  rw [if_neg hne]
  refine ⟨_, _, rfl, ?_, ?_⟩
  · simp [G.length]
  · intro q hq
    obtain ⟨i, hi, rfl⟩ := List.getElem_of_mem hq
    simp only [List.getElem_zipWith, List.getElem_map]
    simp only [List.length_zipWith, List.length_map, lt_inf_iff] at hi
    set k := (G.draw r ps.length n).2[i]'hi.1 with hk
    have hlt : k < ps.length := G.lt _ _ _ (List.length_pos_iff.2 hne) _ (List.getElem_mem _)
    have ho : ((G.draw (G.draw r ps.length n).1 (mocRange dp) n).2[i]'hi.2) < 4 ^ (29 - dp) := by
      have := G.lt (G.draw r ps.length n).1 (mocRange dp) n (by rw [moc_range]; positivity) _ (List.getElem_mem hi.2)
      exact lt_of_lt_of_eq this (moc_range dp)
    have hp : ps.getD k 0 = ps[k] := by
      rw [List.getD_eq_getElem?_getD, List.getElem?_eq_getElem hlt]; rfl
    rw [hp, moc29_eq hd (hvalid _ (List.getElem_mem _)) ho]
    have hb := moc_bound hd (hvalid ps[k] (List.getElem_mem _))
    rw [Nat.add_mul, one_mul] at hb
    refine ⟨by omega, ps[k], List.getElem_mem _, ?_⟩
    unfold Descendant
    rw [Nat.mul_comm, Nat.mul_add_div (by positivity), Nat.div_eq_of_lt ho, Nat.add_zero]

/-- C23 (onto). Every level-29 descendant of a pixel of the list is the pixel generated for some
admissible pair of draws (an index into the list, and an offset below the offset range). -/
theorem C23_onto (depth : Nat) (hd : depth ≤ 29) (pixels : List Nat) (hvalid : ∀ p ∈ pixels, p < 12 * 4 ^ depth)
    (p q : Nat) (hp : p ∈ pixels) (hq : Descendant depth p q) :
    ∃ k offset, k < pixels.length ∧ offset < mocRange depth ∧ moc29 depth (pixels.getD k 0) offset = q := by
  obtain ⟨k, hk, rfl⟩ := List.getElem_of_mem hp
  refine ⟨k, q % 4 ^ (29 - depth), hk, ?_, ?_⟩
  · rw [moc_range]; exact Nat.mod_lt _ (by positivity)
  · have hg : pixels.getD k 0 = pixels[k] := by
      rw [List.getD_eq_getElem?_getD, List.getElem?_eq_getElem hk]; rfl
    rw [hg, moc29_eq hd (hvalid _ (List.getElem_mem _)) (Nat.mod_lt _ (by positivity))]
    unfold Descendant at hq
    rw [← hq, Nat.mul_comm]
    exact Nat.div_add_mod _ _

/-- C23 (rejections). Depths outside `[2, 29]` are rejected, and an empty coverage raises. -/
theorem C23_rejects (G : IntGen ρ) (depth : Int) (pixels : List Nat) (dp : Nat) (r : ρ) (n : Nat) :
    ((depth < 2 ∨ 29 < depth) → MocSampler.init depth pixels = .error .valueError) ∧
    mocPixels G dp [] r n = (r, .error .valueError) := by
  constructor
  · intro h; unfold MocSampler.init; rw [if_pos h]
  · rfl

example : MocSampler.init 12 [7, 201326591] = .ok (12, [7, 201326591]) ∧ ∀ p ∈ [7, 201326591], p < 12 * 4 ^ 12 := by
  constructor
  · rfl
  · decide

/-! ## C24 -/

theorem ra_eq (u : ℝ) : uniformRa true u = 360 * u := by
  unfold uniformRa degrees
  simp only [if_true]
  field_simp
  ring

theorem dec_eq (v : ℝ) : uniformDec true v = Real.arcsin (2 * v - 1) * (180 / Real.pi) := by
  unfold uniformDec degrees
  simp only [if_true]
  congr 2
  ring

theorem deg_pos : (0 : ℝ) < 180 / Real.pi := div_pos (by norm_num) Real.pi_pos

theorem deg_rad (x : ℝ) : x * (180 / Real.pi) * (Real.pi / 180) = x := by
  field_simp

/-- C24 (range and law). For draws `u, v ∈ [0, 1)` the right ascension is in `[0, 360)` and
proportional to `u`; the declination is in `[-90, 90)` and its sine is `2v - 1` (so equal areas have
equal probability); the declination is below any `δ` exactly for `v < (1 + sin δ) / 2`. -/
theorem C24_range_and_law (u v : ℝ) (hu : 0 ≤ u ∧ u < 1) (hv : 0 ≤ v ∧ v < 1) :
    (uniformRa true u = 360 * u ∧ 0 ≤ uniformRa true u ∧ uniformRa true u < 360) ∧
    (-90 ≤ uniformDec true v ∧ uniformDec true v < 90) ∧
    Real.sin (uniformDec true v * (Real.pi / 180)) = 2 * v - 1 ∧
    ∀ δ, -90 ≤ δ → δ ≤ 90 → (uniformDec true v < δ ↔ v < (1 + Real.sin (δ * (Real.pi / 180))) / 2) := by
  have hpi := Real.pi_pos
  have hsin : Real.sin (uniformDec true v * (Real.pi / 180)) = 2 * v - 1 := by
    rw [dec_eq, deg_rad, Real.sin_arcsin (by linarith [hv.1]) (by linarith [hv.2])]
  have h90 : Real.pi / 2 * (180 / Real.pi) = 90 := by field_simp; norm_num
  have hlow : -90 ≤ uniformDec true v := by
    have h := mul_le_mul_of_nonneg_right (Real.neg_pi_div_two_le_arcsin (2 * v - 1)) deg_pos.le
    rw [neg_mul, h90] at h
    rw [dec_eq]; exact h
  have hhigh : uniformDec true v < 90 := by
    rw [dec_eq, ← h90]
    exact mul_lt_mul_of_pos_right (Real.arcsin_lt_pi_div_two.2 (by linarith [hv.2])) deg_pos
  refine ⟨⟨ra_eq u, by rw [ra_eq]; linarith [hu.1], by rw [ra_eq]; linarith [hu.2]⟩, ⟨hlow, hhigh⟩, hsin, ?_⟩
  intro δ h1 h2
  have hm : ∀ x : ℝ, -90 ≤ x → x ≤ 90 → x * (Real.pi / 180) ∈ Set.Icc (-(Real.pi / 2)) (Real.pi / 2) := by
    intro x hx1 hx2
    constructor <;> nlinarith
  have hmono := Real.strictMonoOn_sin.lt_iff_lt (hm _ hlow hhigh.le) (hm δ h1 h2)
  rw [hsin] at hmono
  constructor
  · intro h
    have := hmono.2 (mul_lt_mul_of_pos_right h (by positivity))
    linarith
  · intro h
    have := hmono.1 (by linarith)
    exact lt_of_mul_lt_mul_right this (by positivity)

/-- C24 (monotone and onto). Both maps are strictly increasing, and every position with right
ascension in `[0, 360)` and declination in `[-90, 90)` is the image of draws in `[0, 1)`. -/
theorem C24_monotone_onto :
    (∀ u u' : ℝ, u < u' → uniformRa true u < uniformRa true u') ∧
    (∀ v v' : ℝ, 0 ≤ v → v < v' → v' < 1 → uniformDec true v < uniformDec true v') ∧
    (∀ ra : ℝ, 0 ≤ ra → ra < 360 → ∃ u, 0 ≤ u ∧ u < 1 ∧ uniformRa true u = ra) ∧
    ∀ dec : ℝ, -90 ≤ dec → dec < 90 → ∃ v, 0 ≤ v ∧ v < 1 ∧ uniformDec true v = dec := by
  refine ⟨?_, ?_, ?_, ?_⟩
  · intro u u' h; rw [ra_eq, ra_eq]; linarith
  · intro v v' h0 h h1
    rw [dec_eq, dec_eq]
    apply mul_lt_mul_of_pos_right _ deg_pos
    apply Real.strictMonoOn_arcsin
    · constructor <;> linarith
    · constructor <;> linarith
    · linarith
  · intro ra h0 h1
    exact ⟨ra / 360, by positivity, by linarith, by rw [ra_eq]; ring⟩
  · intro dec h0 h1
    have hpi := Real.pi_pos
    have hlo : -(Real.pi / 2) ≤ dec * (Real.pi / 180) := by nlinarith
    have hhi : dec * (Real.pi / 180) < Real.pi / 2 := by nlinarith
    have hs1 : Real.sin (dec * (Real.pi / 180)) < 1 := by
      rw [← Real.sin_pi_div_two]
      exact Real.strictMonoOn_sin ⟨hlo, hhi.le⟩ ⟨by linarith, le_refl _⟩ hhi
    have hs0 := Real.neg_one_le_sin (dec * (Real.pi / 180))
    refine ⟨(1 + Real.sin (dec * (Real.pi / 180))) / 2, by linarith, by linarith, ?_⟩
    rw [dec_eq, show 2 * ((1 + Real.sin (dec * (Real.pi / 180))) / 2) - 1 = Real.sin (dec * (Real.pi / 180)) by ring,
      Real.arcsin_sin hlo hhi.le]
    field_simp

/-- C24 (the node). `compute` stores (unless fixed) one right ascension and one declination per
sample, each the image of that sample's draw. -/
theorem C24_compute (G : UnitGen ρ ℝ) (b : Bool) (nd : PNode ℝ σ) (hd : '.' ∉ nd.str) (s : GState ℝ) (hs : Reachable s)
    (r : ρ) :
    ∃ r' s' ra dec, UniformRADEC.compute G b nd r s = (r', s', .ok (ra, dec)) ∧
      (rowsOf s.numSamples ra).length = s.numSamples ∧ (rowsOf s.numSamples dec).length = s.numSamples ∧
      (∀ k, k < s.numSamples → ∃ u v : ℝ, 0 ≤ u ∧ u < 1 ∧ 0 ≤ v ∧ v < 1 ∧
        sampleAt s.numSamples ra k = some (.scalar (uniformRa b u)) ∧
        sampleAt s.numSamples dec k = some (.scalar (uniformDec b v))) ∧
      (isFixed s nd.str "ra".toList ∨ readParam s' nd.str "ra".toList = some ra) ∧
      (isFixed s nd.str "dec".toList ∨ readParam s' nd.str "dec".toList = some dec) := by
  have l1 : ((G.draw r s.numSamples).2.map fun u => (.scalar (uniformRa b u) : Val ℝ)).length = s.numSamples := by
    rw [List.length_map, G.length]
  have l2 : ((G.draw (G.draw r s.numSamples).1 s.numSamples).2.map fun v => (.scalar (uniformDec b v) : Val ℝ)).length =
      s.numSamples := by rw [List.length_map, G.length]
  obtain ⟨s', e1, e2, e3⟩ := save_radec nd hd s hs _ _ (packed_fits l1) (packed_fits l2)
  refine ⟨(G.draw (G.draw r s.numSamples).1 s.numSamples).1, s', _, _, ?_, (packed_fits l1).1, (packed_fits l2).1, ?_, e2, e3⟩
  · unfold UniformRADEC.compute; simp only [e1]
  · intro k hk
    have h1 : k < (G.draw r s.numSamples).2.length := by rw [G.length]; exact hk
    have h2 : k < (G.draw (G.draw r s.numSamples).1 s.numSamples).2.length := by rw [G.length]; exact hk
    refine ⟨_, _, G.nonneg _ _ _ (List.getElem_mem h1), G.lt_one _ _ _ (List.getElem_mem h1),
      G.nonneg _ _ _ (List.getElem_mem h2), G.lt_one _ _ _ (List.getElem_mem h2), ?_, ?_⟩
    · unfold sampleAt
      rw [packed_rows l1, List.getElem?_map, List.getElem?_eq_getElem h1]; rfl
    · unfold sampleAt
      rw [packed_rows l2, List.getElem?_map, List.getElem?_eq_getElem h2]; rfl

/-! ## C25 -/

theorem refill_length {P : Type} : ∀ (ps : List P) (ms : List Bool) (new : List P), (refill ps ms new).length = ps.length := by
  intro ps
  induction ps with
  | nil => intro ms new; cases ms <;> simp [refill]
  | cons p ps ih =>
    intro ms new
    match ms with
    | [] => simp [refill]
    | true :: ms => simp [refill, ih]
    | false :: ms =>
      cases new with
      | nil => simp [refill]
      | cons q new => simp [refill, ih]

theorem refill_keeps {P : Type} : ∀ (ps : List P) (ms : List Bool) (new : List P) (k : Nat),
    ms[k]? = some true → (refill ps ms new)[k]? = ps[k]? := by
  intro ps
  induction ps with
  | nil => intro ms new k _; cases ms <;> simp [refill]
  | cons p ps ih =>
    intro ms new k h
    match ms with
    | [] => simp at h
    | true :: ms =>
      cases k with
      | zero => simp [refill]
      | succ k => simp only [refill, List.getElem?_cons_succ] at h ⊢; exact ih ms new k h
    | false :: ms =>
      cases new with
      | nil => simp [refill]
      | cons q new =>
        cases k with
        | zero => simp at h
        | succ k => simp only [refill, List.getElem?_cons_succ] at h ⊢; exact ih ms new k h

theorem loop_inv (G : UnitGen ρ ℝ) (covered : ℝ × ℝ → Bool) : ∀ (fuel : Nat) (r : ρ) (pts : List (ℝ × ℝ)) (mask : List Bool),
    mask.length = pts.length → (∀ k : Nat, mask[k]? = some true → ∃ p, pts[k]? = some p ∧ covered p = true) →
    (rejectLoop G covered fuel r pts mask).2.1.length = pts.length ∧
    (rejectLoop G covered fuel r pts mask).2.2.length = pts.length ∧
    (∀ k : Nat, (rejectLoop G covered fuel r pts mask).2.2[k]? = some true →
      ∃ p, (rejectLoop G covered fuel r pts mask).2.1[k]? = some p ∧ covered p = true) ∧
    (∀ k : Nat, mask[k]? = some true → (rejectLoop G covered fuel r pts mask).2.1[k]? = pts[k]?) := by
  intro fuel
  induction fuel with
  | zero => intro r pts mask h1 h2; exact ⟨rfl, h1, h2, fun _ _ => rfl⟩
  | succ fuel ih =>
    intro r pts mask h1 h2
    unfold rejectLoop
    by_cases hm : missing mask > 0
    · simp only [hm, if_true]
      set new := List.zip ((G.draw r (missing mask)).2.map (uniformRa true))
        ((G.draw (G.draw r (missing mask)).1 (missing mask)).2.map (uniformDec true))
      set pts' := refill pts mask new with hp
      have hlen : pts'.length = pts.length := refill_length _ _ _
      obtain ⟨a1, a2, a3, a4⟩ := ih (G.draw (G.draw r (missing mask)).1 (missing mask)).1 pts' (pts'.map covered)
        (by simp) (by
          intro k hk
          rw [List.getElem?_map] at hk
          cases hpk : pts'[k]? with
          | none => rw [hpk] at hk; cases hk
          | some p => rw [hpk] at hk; exact ⟨p, by first | exact hpk | rfl, by simpa using hk⟩)
      refine ⟨a1.trans hlen, a2.trans hlen, a3, ?_⟩
      intro k hk
      have hkeep := refill_keeps pts mask new k hk
      rw [← hkeep]
      apply a4
      obtain ⟨p, e1, e2⟩ := h2 k hk
      rw [List.getElem?_map, hp, hkeep, e1]
      simp [e2]
    · simp only [hm, if_false]
      exact ⟨trivial, h1, h2, fun _ _ => trivial⟩

/-- Not every sample was covered when the iterations ran out. -/
def RanOut (G : UnitGen ρ ℝ) (covered : ℝ × ℝ → Bool) (maxIter n : Nat) (r : ρ) : Prop :=
  0 < missing (rejectLoop G covered maxIter r (List.replicate n (0, 0)) (List.replicate n false)).2.2

/-- C25, when the iterations suffice. `compute` always returns and stores (unless fixed)
`num_samples` points, and all of them are covered, unless `max_iterations` refills left some sample
uncovered — the case the full property does not allow (see `C25_uncovered_counterexample`). -/
theorem C25_covered_partial (G : UnitGen ρ ℝ) (covered : ℝ × ℝ → Bool) (maxIter : Nat) (nd : PNode ℝ σ)
    (hd : '.' ∉ nd.str) (s : GState ℝ) (hs : Reachable s) (r : ρ) :
    ∃ r' s' ra dec, FootprintSampler.compute G covered maxIter nd r s = (r', s', .ok (ra, dec)) ∧
      (rowsOf s.numSamples ra).length = s.numSamples ∧ (rowsOf s.numSamples dec).length = s.numSamples ∧
      (isFixed s nd.str "ra".toList ∨ readParam s' nd.str "ra".toList = some ra) ∧
      (isFixed s nd.str "dec".toList ∨ readParam s' nd.str "dec".toList = some dec) ∧
      (RanOut G covered maxIter s.numSamples r ∨ ∀ k, k < s.numSamples → ∃ a d : ℝ,
        sampleAt s.numSamples ra k = some (.scalar a) ∧ sampleAt s.numSamples dec k = some (.scalar d) ∧
        covered (a, d) = true) := by
  set n := s.numSamples with hn
  obtain ⟨a1, a2, a3, _⟩ := loop_inv G covered maxIter r (List.replicate n (0, 0)) (List.replicate n false) (by simp) (by
    intro k hk
    rw [List.getElem?_replicate] at hk
    split at hk <;> cases hk)
  set res := rejectLoop G covered maxIter r (List.replicate n (0, 0)) (List.replicate n false) with hres
  rw [List.length_replicate] at a1 a2
  have l1 : (res.2.1.map fun p => (.scalar p.1 : Val ℝ)).length = n := by rw [List.length_map, a1]
  have l2 : (res.2.1.map fun p => (.scalar p.2 : Val ℝ)).length = n := by rw [List.length_map, a1]
  obtain ⟨s', e1, e2, e3⟩ := save_radec nd hd s hs _ _ (packed_fits l1) (packed_fits l2)
  refine ⟨res.1, s', _, _, ?_, (packed_fits l1).1, (packed_fits l2).1, e2, e3, ?_⟩
  · unfold FootprintSampler.compute
    simp only [← hn, ← hres]
    rw [e1]
  · by_cases hm : 0 < missing res.2.2
    · exact Or.inl hm
    · right
      intro k hk
      have hk1 : k < res.2.1.length := by rw [a1]; exact hk
      have hk2 : k < res.2.2.length := by rw [a2]; exact hk
      have hmask : res.2.2[k]? = some true := by
        rw [List.getElem?_eq_getElem hk2]
        cases hb : res.2.2[k] with
        | true => rfl
        | false =>
          exfalso
          apply hm
          unfold missing
          rw [List.count_pos_iff]
          rw [← hb]; exact List.getElem_mem _
      obtain ⟨p, h1, h2⟩ := a3 k hmask
      refine ⟨p.1, p.2, ?_, ?_, h2⟩
      · unfold sampleAt; rw [packed_rows l1, List.getElem?_map, h1]; rfl
      · unfold sampleAt; rw [packed_rows l2, List.getElem?_map, h1]; rfl

/-- A generator over the reals drawing zero every time. -/
noncomputable def zeroUnit : UnitGen Unit ℝ := ⟨fun _ n => ((), List.replicate n 0), by simp, by
    intro r n u hu; simp at hu; rw [hu.2], by
    intro r n u hu; simp at hu; rw [hu.2]; norm_num⟩

/-- A node named `t`. -/
def skyNode : PNode ℝ Unit :=
  { cls := [], label := some ['t'], isFunc := true, funcName := none, body := none, attrs := [], pos := none,
    str := ['t'], setters := [], argNames := [], outputs := ["ra".toList, "dec".toList] }

/-- C25 is false when the iterations run out: with a footprint the draws never hit, every
`max_iterations` returns normally with an uncovered point. -/
theorem C25_uncovered_counterexample (maxIter : Nat) :
    ∃ (G : UnitGen Unit ℝ) (covered : ℝ × ℝ → Bool), (∃ p, covered p = true) ∧
      ∃ (s : GState ℝ), GState.init 1 = .ok s ∧ ∃ r' s' a d,
        FootprintSampler.compute G covered maxIter skyNode () s = (r', s', .ok (.scalar a, .scalar d)) ∧
        covered (a, d) = false := by
  classical
  let cov : ℝ × ℝ → Bool := fun p => decide (p.1 = 5)
  have key : ∀ fuel (x : ℝ), ∀ mask, ∃ d, (rejectLoop zeroUnit cov fuel () [(0, x)] mask).2.1 = [(0, d)] := by
    intro fuel
    induction fuel with
    | zero => intro x mask; exact ⟨x, rfl⟩
    | succ fuel ih =>
      intro x mask
      unfold rejectLoop
      split
      · have hr : ∃ y, refill [((0 : ℝ), x)] mask (List.zip ((zeroUnit.draw () (missing mask)).2.map (uniformRa true))
            ((zeroUnit.draw (zeroUnit.draw () (missing mask)).1 (missing mask)).2.map (uniformDec true))) = [(0, y)] := by
          match mask with
          | [] => exact ⟨x, rfl⟩
          | true :: ms => exact ⟨x, by simp [refill]⟩
          | false :: ms =>
            refine ⟨uniformDec true 0, ?_⟩
            have : missing (false :: ms) = missing ms + 1 := by simp [missing]
            rw [this]
            simp only [zeroUnit, List.replicate_succ, List.map_cons, List.zip_cons_cons, refill]
            rw [ra_eq]; simp
        obtain ⟨y, hy⟩ := hr
        simp only
        rw [hy]
        exact ih y _
      · exact ⟨x, rfl⟩
  refine ⟨zeroUnit, cov, ⟨(5, 0), by simp [cov]⟩, _, rfl, ?_⟩
  obtain ⟨d, hd⟩ := key maxIter 0 [false]
  have hn : (Int.toNat 1) = 1 := rfl
  obtain ⟨r', s', ra, dec, h1, _⟩ := C25_covered_partial zeroUnit cov maxIter skyNode (by decide)
    (⟨Int.toNat 1, 0, [], []⟩ : GState ℝ) ⟨1, _, [], rfl, rfl⟩ ()
  have hra : ra = .scalar 0 ∧ dec = .scalar d := by
    unfold FootprintSampler.compute at h1
    simp only [hn, List.replicate_succ, List.replicate_zero, hd, List.map_cons, List.map_nil, packed, if_true] at h1
    split at h1
    · simp only [Prod.mk.injEq, Except.ok.injEq] at h1
      exact ⟨h1.2.2.1.symm, h1.2.2.2.symm⟩
    · simp at h1
  obtain ⟨rfl, rfl⟩ := hra
  exact ⟨r', s', 0, d, h1, by simp [cov]⟩

end LCL.SkyProps
