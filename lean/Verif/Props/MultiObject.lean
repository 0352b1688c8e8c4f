import Verif.Props.Physical
import Mathlib.Algebra.BigOperators.Group.List.Lemmas

/-!
# Properties C35 (additive models add), C36 (random mixtures evaluate the selected object), C67
-/

namespace LCL.MultiProps
open LCL LCL.PhysSpec LCL.PhysLemmas LCL.PhysicalProps PhysModel
variable {K : Type} [Field K] [LinearOrder K] {V W R : Type}

/-- A bandflux-only object: an object of a subclass of BandfluxModel. -/
def BandOnly (o : PhysModel V W R K) : Prop := ∃ b, o = .band b

omit [LinearOrder K] [Field K] in
theorem isBand_true (o : PhysModel V W R K) : o.isBand = true ↔ BandOnly o := by
  unfold BandOnly; cases o <;> simp [isBand]

omit [LinearOrder K] [Field K] in
theorem isBand_false (o : PhysModel V W R K) : o.isBand = false ↔ ¬ BandOnly o := by
  rw [← isBand_true]; simp

/-! ## Sums of arrays -/

omit [LinearOrder K] in
theorem entry_add (w : K) : ∀ (a b : Mat K), a.map List.length = b.map List.length → ∀ i j,
    entry (List.zipWith (List.zipWith fun x y => x + w * y) a b) i j = entry a i j + w * entry b i j := by
  have row : ∀ (a b : List K), a.length = b.length → ∀ j,
      (List.zipWith (fun x y => x + w * y) a b).getD j 0 = a.getD j 0 + w * b.getD j 0 := by
    intro a
    induction a with
    | nil => intro b h j; rw [List.length_eq_zero_iff.1 h.symm]; simp
    | cons x a ih =>
      intro b h j
      cases b with
      | nil => simp at h
      | cons y b =>
        cases j with
        | zero => simp
        | succ j => simpa using ih b (by simpa using h) j
  intro a
  induction a with
  | nil =>
    intro b h i j
    have : b = [] := by simpa using h.symm
    rw [this]; simp [entry]
  | cons r a ih =>
    intro b h i j
    cases b with
    | nil => simp at h
    | cons r' b =>
      simp only [List.map_cons, List.cons.injEq] at h
      cases i with
      | zero => simpa [entry] using row r r' h.1 j
      | succ i => simpa [entry] using ih b h.2 i j

omit [Field K] [LinearOrder K] in
theorem shape_lengths {T N : Nat} {a : Mat K} : Shape T N a ↔ a.map List.length = List.replicate T N := by
  unfold Shape
  rw [List.eq_replicate_iff]
  simp

omit [LinearOrder K] in
theorem shape_add {T N : Nat} (w : K) {a b : Mat K} (ha : Shape T N a) (hb : Shape T N b) :
    Shape T N (List.zipWith (List.zipWith fun x y => x + w * y) a b) := by
  refine ⟨by simp [ha.1, hb.1], ?_⟩
  intro row hrow
  obtain ⟨i, hi, rfl⟩ := List.getElem_of_mem hrow
  simp only [List.getElem_zipWith, List.length_zipWith]
  rw [ha.2 _ (List.getElem_mem _), hb.2 _ (List.getElem_mem _), Nat.min_self]

omit [LinearOrder K] in
/-- An array is determined by its shape and its entries. -/
theorem shape_ext {T N : Nat} {a b : Mat K} (ha : Shape T N a) (hb : Shape T N b)
    (h : ∀ i j, entry a i j = entry b i j) : a = b := by
  apply List.ext_getElem (by rw [ha.1, hb.1])
  intro i h1 h2
  apply List.ext_getElem (by rw [ha.2 _ (List.getElem_mem _), hb.2 _ (List.getElem_mem _)])
  intro j h3 h4
  have := h i j
  unfold entry at this
  simpa [List.getD_eq_getElem?_getD, h1, h2, h3, h4] using this

omit [LinearOrder K] in
theorem addScaled_iff {T N : Nat} (w : K) {acc a c : Mat K} (hacc : Shape T N acc) :
    addScaled w acc a = .ok c ↔ Shape T N a ∧ c = List.zipWith (List.zipWith fun x y => x + w * y) acc a := by
  unfold addScaled
  rw [shape_lengths.1 hacc]
  constructor
  · intro h
    split at h
    · rename_i hc
      cases h
      exact ⟨shape_lengths.2 hc.symm, rfl⟩
    · cases h
  · rintro ⟨h, rfl⟩
    rw [if_pos (shape_lengths.1 h).symm]

theorem sumSed_iff (noKw kw : W) (times waves : List K) (st : SState K) (T N : Nat) :
    ∀ (objects : List (PhysModel V W R K)) (ws : List K) (acc : Mat K) (r : R) (res : Mat K × R),
    ws.length = objects.length → Shape T N acc →
    (sumSed noKw times waves st kw objects ws acc r = .ok res ↔
      ∃ mats, InOrder (evaluateSingle noKw times waves st kw) objects r mats res.2 ∧ (∀ a ∈ mats, Shape T N a) ∧
        Shape T N res.1 ∧
        ∀ i j, entry res.1 i j = entry acc i j + (List.zipWith (fun w a => w * entry a i j) ws mats).sum)
  | [], ws, acc, r, res, _, hacc => by
    rw [sumSed]
    constructor
    · intro h; cases h
      exact ⟨[], .nil _, by simp, hacc, by simp⟩
    · rintro ⟨mats, h1, _, h3, h4⟩
      obtain ⟨a, r'⟩ := res
      simp only at h1 h3 h4
      cases h1
      have : a = acc := shape_ext h3 hacc (by intro i j; simpa using h4 i j)
      rw [this]
  | o :: os, [], acc, r, res, h, _ => by simp at h
  | o :: os, w :: ws, acc, r, res, hl, hacc => by
    have ih := sumSed_iff noKw kw times waves st T N os ws
    rw [sumSed]
    constructor
    · intro h
      split at h
      · cases h
      · rename_i a r' ha
        split at h
        · cases h
        · rename_i acc' hacc'
          obtain ⟨hs, rfl⟩ := (addScaled_iff w hacc).1 hacc'
          have hsh := shape_add w hacc hs
          obtain ⟨mats, m1, m2, m3, m4⟩ := (ih _ _ _ (by simpa using hl) hsh).1 h
          refine ⟨a :: mats, .cons ha m1, ?_, m3, ?_⟩
          · intro b hb
            rcases List.mem_cons.1 hb with rfl | hb
            · exact hs
            · exact m2 b hb
          · intro i j
            rw [m4 i j, entry_add w acc a (by rw [shape_lengths.1 hacc, shape_lengths.1 hs])]
            simp only [List.zipWith_cons_cons, List.sum_cons]
            ring
    · rintro ⟨mats, h1, h2, h3, h4⟩
      cases h1 with
      | @cons _ _ _ a r' as _ ha hrest =>
        rw [ha]
        simp only
        have hs := h2 a (by simp)
        rw [(addScaled_iff w hacc).2 ⟨hs, rfl⟩]
        simp only
        refine (ih _ _ _ (by simpa using hl) (shape_add w hacc hs)).2 ⟨as, hrest, fun b hb => h2 b (List.mem_cons_of_mem _ hb), h3, ?_⟩
        intro i j
        rw [h4 i j, entry_add w acc a (by rw [shape_lengths.1 hacc, shape_lengths.1 hs])]
        simp only [List.zipWith_cons_cons, List.sum_cons]
        ring

omit [LinearOrder K] in
theorem zeros_shape (times waves : List K) : Shape times.length waves.length (times.map fun _ => waves.map fun _ => (0 : K)) := by
  refine ⟨by simp, ?_⟩
  intro row hrow
  obtain ⟨_, _, rfl⟩ := List.mem_map.1 hrow
  simp

omit [LinearOrder K] in
theorem zeros_entry (times waves : List K) (i j : Nat) : entry (times.map fun _ => waves.map fun _ => (0 : K)) i j = 0 := by
  unfold entry
  simp only [List.getD_eq_getElem?_getD, List.getElem?_map]
  cases times[i]? with
  | none => simp
  | some _ =>
    simp only [Option.map_some, Option.getD_some, List.getElem?_map]
    cases waves[j]? <;> simp

theorem localParams_iff (st : SState K) (n : Name) (p : Params K) : localParams st n = .ok p ↔ st.get? n = some p := by
  unfold localParams
  cases st.get? n <;> simp

/-- C35, SEDs. An additive model of objects (none of them bandflux-only) evaluates to `out` exactly when each
object is evaluated once, in order, to an array of the requested shape, and `out` is the result of applying
the composite's own effects, once each in order and with the composite's own parameters, to the array
whose every entry is the weighted sum of the objects' entries. -/
theorem C35_sum (noKw kw : W) (times waves : List K) (st : SState K) (node : Name) (setters : Dict Name V)
    (objects : List (PhysModel V W R K)) (weights : List K) (obs : List (Effect V R K)) (r : R) (out : Mat K × R)
    (hw : weights.length = objects.length) (hb : ∀ o ∈ objects, ¬ BandOnly o) :
    evaluateSingle noKw times waves st kw (.additive node setters objects weights obs) r = .ok out ↔
      ∃ mats r' p total, InOrder (evaluateSingle noKw times waves st kw) objects r mats r' ∧
        (∀ a ∈ mats, Shape times.length waves.length a) ∧ Shape times.length waves.length total ∧
        (∀ i j, entry total i j = (List.zipWith (fun w a => w * entry a i j) weights mats).sum) ∧
        st.get? node = some p ∧ Applied p times waves obs (total, r') out := by
  have hany : objects.any isBand = false := by
    rw [List.any_eq_false]; intro o ho; simp [(isBand_false o).2 (hb o ho)]
  rw [evaluateSingle, hany]
  simp only [Bool.false_eq_true, if_false]
  have key := sumSed_iff noKw kw times waves st times.length waves.length objects weights
    (times.map fun _ => waves.map fun _ => (0 : K)) r
  constructor
  · intro h
    split at h
    · cases h
    · rename_i a r' ha
      obtain ⟨mats, m1, m2, m3, m4⟩ := (key (a, r') hw (zeros_shape times waves)).1 ha
      split at h
      · cases h
      · rename_i p hp
        refine ⟨mats, r', p, a, m1, m2, m3, ?_, (localParams_iff _ _ _).1 hp, (applyEffects_iff _ _ _ _ _ _ _).1 h⟩
        intro i j
        rw [m4 i j, zeros_entry, zero_add]
  · rintro ⟨mats, r', p, total, h1, h2, h3, h4, h5, h6⟩
    have := (key (total, r') hw (zeros_shape times waves)).2 ⟨mats, h1, h2, h3, by
      intro i j; rw [zeros_entry, zero_add]; exact h4 i j⟩
    rw [this]
    simp only
    rw [(localParams_iff _ _ _).2 h5]
    exact (applyEffects_iff _ _ _ _ _ _ _).2 h6

/-- C35: an additive model with a bandflux-only object refuses to compute an SED. -/
theorem C35_bandflux_object_raises (noKw kw : W) (times waves : List K) (st : SState K) (node : Name)
    (setters : Dict Name V) (objects : List (PhysModel V W R K)) (weights : List K) (obs : List (Effect V R K)) (r : R)
    (hb : ∃ o ∈ objects, BandOnly o) :
    evaluateSingle noKw times waves st kw (.additive node setters objects weights obs) r = .error .typeError := by
  have hany : objects.any isBand = true := by
    rw [List.any_eq_true]; obtain ⟨o, ho, h⟩ := hb; exact ⟨o, ho, (isBand_true o).2 h⟩
  rw [evaluateSingle, hany]
  simp

/-! ## Bandfluxes -/

omit [LinearOrder K] in
theorem band_add (w : K) : ∀ (a b : List K), a.length = b.length → ∀ j,
    (List.zipWith (fun x y => x + w * y) a b).getD j 0 = a.getD j 0 + w * b.getD j 0 := by
  intro a
  induction a with
  | nil => intro b h j; rw [List.length_eq_zero_iff.1 h.symm]; simp
  | cons x a ih =>
    intro b h j
    cases b with
    | nil => simp at h
    | cons y b =>
      cases j with
      | zero => simp
      | succ j => simpa using ih b (by simpa using h) j

omit [LinearOrder K] in
theorem list_ext {a b : List K} (hl : a.length = b.length) (h : ∀ j, a.getD j 0 = b.getD j 0) : a = b := by
  apply List.ext_getElem hl
  intro i h1 h2
  simpa [List.getD_eq_getElem?_getD, h1, h2] using h i

theorem applyBandEffects_iff (p : Params K) (times : List K) (filters : List Name) (es : List (Effect V R K)) (r : R)
    (a : List K) (out : List K × R) :
    applyBandEffects p times filters es r a = .ok out ↔ AppliedBand p times filters es (a, r) out := by
  induction es generalizing r a with
  | nil =>
    constructor
    · intro h; simp only [applyBandEffects, Except.ok.injEq] at h; subst h; exact .nil _
    · intro h; cases h; rfl
  | cons e es ih =>
    simp only [applyBandEffects]
    constructor
    · intro h
      split at h
      · cases h
      · rename_i a' r' he
        exact .cons he ((ih _ _).1 h)
    · intro h
      cases h with
      | @cons _ _ _ y _ he h =>
        obtain ⟨a', r'⟩ := y
        simp only at he
        rw [he]
        exact (ih _ _).2 h

theorem sumBand_iff (noKw : W) (g : PassbandGroup K) (times : List K) (filters : List Name) (st : SState K) (N : Nat) :
    ∀ (objects : List (PhysModel V W R K)) (ws : List K) (acc : List K) (r : R) (res : List K × R),
    ws.length = objects.length → acc.length = N →
    (sumBand noKw g times filters st objects ws acc r = .ok res ↔
      ∃ rows, InOrder (PhysModel.bandfluxesSingle noKw g times filters st) objects r rows res.2 ∧ (∀ a ∈ rows, a.length = N) ∧
        res.1.length = N ∧
        ∀ j, res.1.getD j 0 = acc.getD j 0 + (List.zipWith (fun w (a : List K) => w * a.getD j 0) ws rows).sum)
  | [], ws, acc, r, res, _, hacc => by
    rw [sumBand]
    constructor
    · intro h; cases h
      exact ⟨[], .nil _, by simp, hacc, by simp⟩
    · rintro ⟨rows, h1, _, h3, h4⟩
      obtain ⟨a, r'⟩ := res
      simp only at h1 h3 h4
      cases h1
      have : a = acc := list_ext (h3.trans hacc.symm) (by intro j; simpa using h4 j)
      rw [this]
  | o :: os, [], acc, r, res, h, _ => by simp at h
  | o :: os, w :: ws, acc, r, res, hl, hacc => by
    have ih := sumBand_iff noKw g times filters st N os ws
    rw [sumBand]
    constructor
    · intro h
      split at h
      · cases h
      · rename_i a r' ha
        split at h
        · cases h
        · rename_i acc' hacc'
          unfold addScaledBand at hacc'
          split at hacc'
          · rename_i hla
            cases hacc'
            obtain ⟨rows, m1, m2, m3, m4⟩ := (ih _ _ _ (by simpa using hl) (by simp [← hla, hacc])).1 h
            refine ⟨a :: rows, .cons ha m1, ?_, m3, ?_⟩
            · intro b hb
              rcases List.mem_cons.1 hb with rfl | hb
              · exact hla ▸ hacc
              · exact m2 b hb
            · intro j
              rw [m4 j, band_add w acc a hla]
              simp only [List.zipWith_cons_cons, List.sum_cons]
              ring
          · cases hacc'
    · rintro ⟨rows, h1, h2, h3, h4⟩
      cases h1 with
      | @cons _ _ _ a r' as _ ha hrest =>
        rw [ha]
        simp only
        have hs : acc.length = a.length := hacc.trans (h2 a (by simp)).symm
        unfold addScaledBand
        rw [if_pos hs]
        simp only
        refine (ih _ _ _ (by simpa using hl) (by simp [← hs, hacc])).2 ⟨as, hrest, fun b hb => h2 b (List.mem_cons_of_mem _ hb), h3, ?_⟩
        intro j
        rw [h4 j, band_add w acc a hs]
        simp only [List.zipWith_cons_cons, List.sum_cons]
        ring

/-- C35, bandfluxes: the same for the bandfluxes of any mixture of SED, bandflux and composite objects. -/
theorem C35_sum_bandflux (noKw : W) (g : PassbandGroup K) (times : List K) (filters : List Name) (st : SState K) (node : Name)
    (setters : Dict Name V) (objects : List (PhysModel V W R K)) (weights : List K) (obs : List (Effect V R K)) (r : R)
    (out : List K × R) (hw : weights.length = objects.length) :
    PhysModel.bandfluxesSingle noKw g times filters st (.additive node setters objects weights obs) r = .ok out ↔
      ∃ rows r' p total, InOrder (PhysModel.bandfluxesSingle noKw g times filters st) objects r rows r' ∧
        (∀ a ∈ rows, a.length = times.length) ∧ total.length = times.length ∧
        (∀ j, total.getD j 0 = (List.zipWith (fun w (a : List K) => w * a.getD j 0) weights rows).sum) ∧
        st.get? node = some p ∧ AppliedBand p times filters obs (total, r') out := by
  rw [PhysModel.bandfluxesSingle]
  have key := sumBand_iff noKw g times filters st times.length objects weights (times.map fun _ => 0) r
  have hz : ∀ j, (times.map fun _ => (0 : K)).getD j 0 = 0 := by
    intro j
    simp only [List.getD_eq_getElem?_getD, List.getElem?_map]
    cases times[j]? <;> simp
  constructor
  · intro h
    split at h
    · cases h
    · rename_i a r' ha
      obtain ⟨rows, m1, m2, m3, m4⟩ := (key (a, r') hw (by simp)).1 ha
      split at h
      · cases h
      · rename_i p hp
        refine ⟨rows, r', p, a, m1, m2, m3, ?_, (localParams_iff _ _ _).1 hp, (applyBandEffects_iff _ _ _ _ _ _ _).1 h⟩
        intro j
        rw [m4 j, hz, zero_add]
  · rintro ⟨rows, r', p, total, h1, h2, h3, h4, h5, h6⟩
    have := (key (total, r') hw (by simp)).2 ⟨rows, h1, h2, h3, by
      intro j; rw [hz, zero_add]; exact h4 j⟩
    rw [this]
    simp only
    rw [(localParams_iff _ _ _).2 h5]
    exact (applyBandEffects_iff _ _ _ _ _ _ _).2 h6

/-! ## Order of the objects -/

theorem inOrder_det {β ω : Type} {eval : ω → R → Except Err (β × R)} {val : ω → β} {r : R} {os : List ω}
    (h : ∀ o ∈ os, eval o r = .ok (val o, r)) {as : List β} {r' : R} :
    InOrder eval os r as r' ↔ as = os.map val ∧ r' = r := by
  induction os generalizing as r' with
  | nil =>
    constructor
    · intro h; cases h; simp
    · rintro ⟨rfl, rfl⟩; exact .nil _
  | cons o os ih =>
    constructor
    · intro hin
      cases hin with
      | cons h1 h2 =>
        rw [h o (by simp)] at h1
        simp only [Except.ok.injEq, Prod.mk.injEq] at h1
        obtain ⟨rfl, rfl⟩ := h1
        obtain ⟨rfl, rfl⟩ := (ih (fun x hx => h x (List.mem_cons_of_mem _ hx))).1 h2
        simp
    · rintro ⟨rfl, rfl⟩
      exact .cons (h o (by simp)) ((ih (fun x hx => h x (List.mem_cons_of_mem _ hx))).2 ⟨rfl, rfl⟩)

/-- C35: the order of the objects (with their weights) does not matter, for objects that evaluate without
drawing random numbers. -/
theorem C35_order_irrelevant (noKw kw : W) (times waves : List K) (st : SState K) (node : Name) (setters : Dict Name V)
    (pairs pairs' : List (PhysModel V W R K × K)) (hperm : pairs.Perm pairs') (obs : List (Effect V R K)) (r : R)
    (val : PhysModel V W R K → Mat K)
    (hdet : ∀ q ∈ pairs, evaluateSingle noKw times waves st kw q.1 r = .ok (val q.1, r) ∧ ¬ BandOnly q.1)
    (out : Mat K × R) :
    evaluateSingle noKw times waves st kw (.additive node setters (pairs.map (·.1)) (pairs.map (·.2)) obs) r = .ok out ↔
    evaluateSingle noKw times waves st kw (.additive node setters (pairs'.map (·.1)) (pairs'.map (·.2)) obs) r = .ok out := by
  have aux : ∀ ps : List (PhysModel V W R K × K), (∀ q ∈ ps, evaluateSingle noKw times waves st kw q.1 r = .ok (val q.1, r) ∧ ¬ BandOnly q.1) →
      (evaluateSingle noKw times waves st kw (.additive node setters (ps.map (·.1)) (ps.map (·.2)) obs) r = .ok out ↔
      ∃ p total, (∀ q ∈ ps, Shape times.length waves.length (val q.1)) ∧ Shape times.length waves.length total ∧
        (∀ i j, entry total i j = (ps.map fun q => q.2 * entry (val q.1) i j).sum) ∧
        st.get? node = some p ∧ Applied p times waves obs (total, r) out) := by
    intro ps hps
    rw [C35_sum noKw kw times waves st node setters _ _ obs r out (by simp) (by
      intro o ho
      obtain ⟨q, hq, rfl⟩ := List.mem_map.1 ho
      exact (hps q hq).2)]
    have hin : ∀ as r', InOrder (evaluateSingle noKw times waves st kw) (ps.map (·.1)) r as r' ↔
        as = (ps.map (·.1)).map val ∧ r' = r := by
      intro as r'
      apply inOrder_det
      intro o ho
      obtain ⟨q, hq, rfl⟩ := List.mem_map.1 ho
      exact (hps q hq).1
    have hsum : ∀ i j, (List.zipWith (fun w a => w * entry a i j) (ps.map (·.2)) ((ps.map (·.1)).map val)).sum =
        (ps.map fun q => q.2 * entry (val q.1) i j).sum := by
      intro i j
      rw [List.map_map, List.zipWith_map_left, List.zipWith_map_right, List.zipWith_self]
      rfl
    constructor
    · rintro ⟨mats, r', p, total, h1, h2, h3, h4, h5, h6⟩
      obtain ⟨rfl, rfl⟩ := (hin _ _).1 h1
      refine ⟨p, total, ?_, h3, ?_, h5, h6⟩
      · intro q hq
        exact h2 _ (List.mem_map.2 ⟨q.1, List.mem_map.2 ⟨q, hq, rfl⟩, rfl⟩)
      · intro i j; rw [h4 i j, hsum]
    · rintro ⟨p, total, h2, h3, h4, h5, h6⟩
      refine ⟨_, r, p, total, (hin _ _).2 ⟨rfl, rfl⟩, ?_, h3, ?_, h5, h6⟩
      · intro a ha
        obtain ⟨o, ho, rfl⟩ := List.mem_map.1 ha
        obtain ⟨q, hq, rfl⟩ := List.mem_map.1 ho
        exact h2 q hq
      · intro i j; rw [h4 i j, hsum]
  rw [aux pairs hdet, aux pairs' (fun q hq => hdet q (hperm.mem_iff.2 hq))]
  have hs : ∀ i j, (pairs.map fun q => q.2 * entry (val q.1) i j).sum = (pairs'.map fun q => q.2 * entry (val q.1) i j).sum :=
    fun i j => (hperm.map _).sum_eq
  simp only [hs, hperm.mem_iff]

/-! ## Effects on composites -/

theorem addEffectAll_eq (e : Effect V R K) (os : List (PhysModel V W R K)) : addEffectAll e os = os.map (addEffect e) := by
  induction os with
  | nil => rfl
  | cons o os ih => simp [addEffectAll, ih]

/-- C35, effects: after any history of add_effect on an additive model, every object has been given exactly
the rest-frame effects, once each and in order, and the composite itself applies exactly the observer-frame
effects, once each and in order. (How the objects and the composite apply their lists is `C33_order` and
`C35_sum`.) -/
theorem C35_effects (es : List (Effect V R K)) (node : Name) (setters : Dict Name V) (objects : List (PhysModel V W R K))
    (weights : List K) (obs : List (Effect V R K)) :
    ∃ setters', es.foldl (fun m e => addEffect e m) (.additive node setters objects weights obs) =
      .additive node setters' (objects.map fun o => (es.filter fun e => e.restFrame).foldl (fun m e => addEffect e m) o) weights
        (obs ++ es.filter fun e => !e.restFrame) := by
  induction es generalizing setters objects obs with
  | nil => exact ⟨setters, by simp⟩
  | cons e es ih =>
    rw [List.foldl_cons, addEffect]
    cases he : e.restFrame with
    | true =>
      simp only [if_true]
      obtain ⟨s', h'⟩ := ih setters (addEffectAll e objects) obs
      refine ⟨s', ?_⟩
      rw [h', addEffectAll_eq]
      simp [he, List.map_map, Function.comp_def]
    | false =>
      simp only [Bool.false_eq_true, if_false]
      obtain ⟨s', h'⟩ := ih (addMissing setters e.parameters) objects (obs ++ [e])
      refine ⟨s', ?_⟩
      rw [h']
      simp [he]

/-- C35: construction gives every object its weight: 1 by default, otherwise the given list, which must
have one entry per object. -/
theorem C35_weights (node : Name) (setters : Dict Name V) (objects : List (PhysModel V W R K)) (ws : List K) :
    mkAdditive node setters objects none = .ok (.additive node setters objects (objects.map fun _ => 1) []) ∧
    (ws.length = objects.length → mkAdditive node setters objects (some ws) = .ok (.additive node setters objects ws [])) ∧
    (ws.length ≠ objects.length → mkAdditive node setters objects (some ws) = .error .valueError) := by
  refine ⟨rfl, ?_, ?_⟩ <;> intro h <;> simp [mkAdditive, h]

/-! ## C36 -/

theorem evaluateNamed_absent (noKw kw : W) (times waves : List K) (st : SState K) (name : Name) :
    ∀ (os : List (PhysModel V W R K)) (ns : List Name) (r : R), name ∉ ns →
    evaluateNamed noKw times waves st kw name os ns r = none
  | [], _, _, _ => by rw [evaluateNamed]
  | _ :: _, [], _, _ => by rw [evaluateNamed]
  | o :: os, n :: ns, r, h => by
    rw [evaluateNamed, evaluateNamed_absent noKw kw times waves st name os ns r (fun hm => h (List.mem_cons_of_mem _ hm))]
    simp only
    rw [if_neg (fun e => h (by simp [e]))]

theorem evaluateNamed_found (noKw kw : W) (times waves : List K) (st : SState K) (name : Name) (o : PhysModel V W R K) :
    ∀ (os : List (PhysModel V W R K)) (ns : List Name) (k : Nat) (r : R), ns.Nodup → os[k]? = some o → ns[k]? = some name →
    evaluateNamed noKw times waves st kw name os ns r = some (evaluateSingle noKw times waves st kw o r)
  | [], _, k, _, _, h, _ => by simp at h
  | _ :: _, [], k, _, _, _, h => by simp at h
  | o' :: os, n :: ns, 0, r, hnd, ho, hn => by
    simp only [List.getElem?_cons_zero, Option.some.injEq] at ho hn
    subst ho; subst hn
    rw [List.nodup_cons] at hnd
    rw [evaluateNamed, evaluateNamed_absent noKw kw times waves st n os ns r hnd.1]
    simp
  | o' :: os, n :: ns, k + 1, r, hnd, ho, hn => by
    rw [List.nodup_cons] at hnd
    rw [evaluateNamed, evaluateNamed_found noKw kw times waves st name o os ns k r hnd.2 (by simpa using ho) (by simpa using hn)]

theorem bandNamed_absent (noKw : W) (g : PassbandGroup K) (times : List K) (filters : List Name) (st : SState K) (name : Name) :
    ∀ (os : List (PhysModel V W R K)) (ns : List Name) (r : R), name ∉ ns →
    bandNamed noKw g times filters st name os ns r = none
  | [], _, _, _ => by rw [bandNamed]
  | _ :: _, [], _, _ => by rw [bandNamed]
  | o :: os, n :: ns, r, h => by
    rw [bandNamed, bandNamed_absent noKw g times filters st name os ns r (fun hm => h (List.mem_cons_of_mem _ hm))]
    simp only
    rw [if_neg (fun e => h (by simp [e]))]

theorem bandNamed_found (noKw : W) (g : PassbandGroup K) (times : List K) (filters : List Name) (st : SState K) (name : Name)
    (o : PhysModel V W R K) :
    ∀ (os : List (PhysModel V W R K)) (ns : List Name) (k : Nat) (r : R), ns.Nodup → os[k]? = some o → ns[k]? = some name →
    bandNamed noKw g times filters st name os ns r = some (PhysModel.bandfluxesSingle noKw g times filters st o r)
  | [], _, k, _, _, h, _ => by simp at h
  | _ :: _, [], k, _, _, _, h => by simp at h
  | o' :: os, n :: ns, 0, r, hnd, ho, hn => by
    simp only [List.getElem?_cons_zero, Option.some.injEq] at ho hn
    subst ho; subst hn
    rw [List.nodup_cons] at hnd
    rw [bandNamed, bandNamed_absent noKw g times filters st n os ns r hnd.1]
    simp
  | o' :: os, n :: ns, k + 1, r, hnd, ho, hn => by
    rw [List.nodup_cons] at hnd
    rw [bandNamed, bandNamed_found noKw g times filters st name o os ns k r hnd.2 (by simpa using ho) (by simpa using hn)]

/-- C36, where it holds: with pairwise distinct names, a random model in a state whose `selected_object` is the
name of object k evaluates (SED and bandfluxes) to the evaluation of object k in that same state, hence under
object k's own parameters, followed by the composite's own effects; an unknown or missing selection
raises KeyError. Missing: repeated names and minwave/maxwave, see the counterexamples. -/
theorem C36_selected_partial (noKw kw : W) (g : PassbandGroup K) (times waves : List K) (filters : List Name) (st : SState K)
    (node : Name) (setters : Dict Name V) (objects : List (PhysModel V W R K)) (names : List Name) (obs : List (Effect V R K)) (r : R)
    (hb : ∀ o ∈ objects, ¬ BandOnly o) :
    (∀ (k : Nat) o n p, names.Nodup → objects[k]? = some o → names[k]? = some n → st.get? node = some p →
      p.get? "selected_object".toList = some (.str n) →
      (∀ out, evaluateSingle noKw times waves st kw (.random node setters objects names obs) r = .ok out ↔
        ∃ mid, evaluateSingle noKw times waves st kw o r = .ok mid ∧ Applied p times waves obs mid out) ∧
      (∀ out, PhysModel.bandfluxesSingle noKw g times filters st (.random node setters objects names obs) r = .ok out ↔
        ∃ mid, PhysModel.bandfluxesSingle noKw g times filters st o r = .ok mid ∧ AppliedBand p times filters obs mid out)) ∧
    ((∀ n, n ∈ names → ∀ p, st.get? node = some p → p.get? "selected_object".toList ≠ some (.str n)) →
      evaluateSingle noKw times waves st kw (.random node setters objects names obs) r = .error .keyError ∧
      PhysModel.bandfluxesSingle noKw g times filters st (.random node setters objects names obs) r = .error .keyError) := by
  have hany : objects.any isBand = false := by
    rw [List.any_eq_false]; intro o ho; simp [(isBand_false o).2 (hb o ho)]
  refine ⟨?_, ?_⟩
  · intro k o n p hnd ho hn hp hsel
    have hs : selected st node = some n := by unfold selected; rw [hp]; simp only; rw [hsel]
    refine ⟨?_, ?_⟩
    · intro out
      rw [evaluateSingle, hany]
      simp only [Bool.false_eq_true, if_false]
      rw [hs]
      simp only
      rw [evaluateNamed_found noKw kw times waves st n o objects names k r hnd ho hn, (localParams_iff _ _ _).2 hp]
      cases evaluateSingle noKw times waves st kw o r with
      | error e => simp
      | ok mid =>
        obtain ⟨a, r'⟩ := mid
        simp only [applyEffects_iff, Except.ok.injEq, exists_eq_left']
    · intro out
      rw [PhysModel.bandfluxesSingle, hs]
      simp only
      rw [bandNamed_found noKw g times filters st n o objects names k r hnd ho hn, (localParams_iff _ _ _).2 hp]
      cases PhysModel.bandfluxesSingle noKw g times filters st o r with
      | error e => simp
      | ok mid =>
        obtain ⟨a, r'⟩ := mid
        simp only [applyBandEffects_iff, Except.ok.injEq, exists_eq_left']
  · intro hno
    rw [evaluateSingle, hany, PhysModel.bandfluxesSingle]
    simp only [Bool.false_eq_true, if_false]
    cases hs : selected st node with
    | none => simp
    | some n =>
      simp only
      have : n ∉ names := by
        intro hm
        unfold selected at hs
        split at hs
        · cases hs
        · rename_i p hp
          split at hs
          · rename_i s hps
            cases hs
            exact hno n hm p hp hps
          · cases hs
      rw [evaluateNamed_absent noKw kw times waves st n objects names r this,
        bandNamed_absent noKw g times filters st n objects names r this]
      exact ⟨rfl, rfl⟩

/-- C36, from the constructor: the names that select the objects are the given ones, in order, and the objects'
own node strings when no names (or an empty list) are given. With pairwise distinct names, a state selecting the
k-th of them evaluates the k-th object. Missing: as in `C36_selected_partial`. -/
theorem C36_constructed_partial (noKw kw : W) (times waves : List K) (st : SState K) (node : Name)
    (setters : Dict Name V) (objects : List (PhysModel V W R K)) (given : List Name) (r : R)
    (hb : ∀ o ∈ objects, ¬ BandOnly o) (k : Nat) (o : PhysModel V W R K) (n : Name) (p : Params K)
    (ho : objects[k]? = some o) (hp : st.get? node = some p) (hsel : p.get? "selected_object".toList = some (.str n)) :
    (given.Nodup → given[k]? = some n → ∀ out,
      (evaluateSingle noKw times waves st kw (mkRandom node setters objects (some given)) r = .ok out ↔
        evaluateSingle noKw times waves st kw o r = .ok out)) ∧
    ((objects.map PhysModel.node).Nodup → o.node = n → ∀ out,
      (evaluateSingle noKw times waves st kw (mkRandom node setters objects none) r = .ok out ↔
        evaluateSingle noKw times waves st kw o r = .ok out) ∧
      (evaluateSingle noKw times waves st kw (mkRandom node setters objects (some [])) r = .ok out ↔
        evaluateSingle noKw times waves st kw o r = .ok out)) := by
  have key : ∀ names : List Name, names.Nodup → names[k]? = some n → ∀ out,
      (evaluateSingle noKw times waves st kw (.random node setters objects names []) r = .ok out ↔
        evaluateSingle noKw times waves st kw o r = .ok out) := by
    intro names hnd hn out
    have h := ((C36_selected_partial noKw kw ⟨[], [], [], []⟩ times waves [] st node setters objects names [] r hb).1 k o n p hnd ho hn hp
      hsel).1 out
    rw [h]
    constructor
    · rintro ⟨mid, hm, ha⟩
      cases ha
      exact hm
    · exact fun hm => ⟨out, hm, .nil _⟩
  refine ⟨fun hnd hn out => ?_, fun hnd hn out => ?_⟩
  · have hne : given ≠ [] := by rintro rfl; simp at hn
    have : mkRandom node setters objects (some given) = .random node setters objects given [] := by
      simp [mkRandom, hne]
    rw [this]
    exact key given hnd hn out
  · have h1 : mkRandom node setters objects none = .random node setters objects (objects.map PhysModel.node) [] := by
      simp [mkRandom]
    have h2 : mkRandom node setters objects (some []) = .random node setters objects (objects.map PhysModel.node) [] := by
      simp [mkRandom]
    rw [h1, h2]
    have := key (objects.map PhysModel.node) hnd (by simp [ho, hn]) out
    exact ⟨this, this⟩

/-- C36 is false for objects of one class without labels: their names are equal when the composite is built, so
the first of two such objects is never evaluated, in any state: replacing it by any other SED object of that name
changes nothing. -/
theorem C36_same_name_counterexample (noKw kw : W) (times waves : List K) (node : Name) (setters : Dict Name V)
    (a a' b : SEDModel V W R K) (h : a.nodeString = b.nodeString) (h' : a'.nodeString = b.nodeString) (st : SState K) (r : R) :
    evaluateSingle noKw times waves st kw (mkRandom node setters [.sed a, .sed b] none) r =
    evaluateSingle noKw times waves st kw (mkRandom node setters [.sed a', .sed b] none) r := by
  simp only [mkRandom, Option.getD_none, if_true, List.map_cons, List.map_nil, PhysModel.node, h, h']
  rw [evaluateSingle, evaluateSingle]
  simp only [List.any_cons, isBand, List.any_nil, Bool.or_self, Bool.false_eq_true, if_false]
  cases selected st node with
  | none => rfl
  | some n =>
    simp only [evaluateNamed]
    by_cases hn : b.nodeString = n <;> simp [hn]

/-- C36 is false for minwave and maxwave: they raise TypeError in every state. -/
theorem C36_minwave_counterexample (f : PhysModel V W R K → SState K → Option K) (objects : List (PhysModel V W R K)) (node : Name)
    (st : SState K) : randomWave f objects node st = .error .typeError := by
  unfold randomWave
  cases selected st node <;> rfl

/-! ## C67 -/

/-- C67, where it holds: on a plain SED model, set_apply_redshift sets the flag and changes nothing else. -/
theorem C67_sed_partial (flag : Bool) (m : SEDModel V W R K) :
    setApplyRedshift flag (.sed m) = .ok (.sed { m with applyRedshift := flag }) := rfl

theorem setRedshiftAll_ok {flag : Bool} {os os' : List (PhysModel V W R K)} (h : setRedshiftAll flag os = .ok os') : os' = os := by
  induction os generalizing os' with
  | nil => simp only [setRedshiftAll, Except.ok.injEq] at h; exact h.symm
  | cons o os ih =>
    simp only [setRedshiftAll] at h
    split at h
    · cases h
    · split at h
      · cases h
      · rename_i os2 h2
        cases h
        rw [ih h2]

/-- C67 is false for composites: whenever set_apply_redshift on a composite returns, nothing has changed; and if
some object is a bandflux model it raises instead. -/
theorem C67_composite_counterexample (flag : Bool) (node : Name) (setters : Dict Name V) (objects : List (PhysModel V W R K))
    (ws : List K) (obs : List (Effect V R K)) :
    ((∀ o ∈ objects, ¬ BandOnly o) →
      setApplyRedshift flag (.additive node setters objects ws obs) = .ok (.additive node setters objects ws obs)) ∧
    ((∃ o ∈ objects, BandOnly o) →
      setApplyRedshift flag (.additive node setters objects ws obs) = .error .notImplemented) := by
  have h1 : (∀ o ∈ objects, o.isBand = false) → setRedshiftAll flag objects = .ok objects := by
    intro h
    induction objects with
    | nil => rfl
    | cons o os ih =>
      simp only [setRedshiftAll, h o (by simp), Bool.false_eq_true, if_false]
      rw [ih (fun x hx => h x (List.mem_cons_of_mem _ hx))]
  have h2 : (∃ o ∈ objects, o.isBand = true) → setRedshiftAll flag objects = .error .notImplemented := by
    intro h
    clear h1
    induction objects with
    | nil => obtain ⟨o, ho, _⟩ := h; simp at ho
    | cons o os ih =>
      simp only [setRedshiftAll]
      by_cases hb : o.isBand = true
      · rw [if_pos hb]
      · rw [if_neg hb]
        obtain ⟨x, hx, hbx⟩ := h
        rw [ih ⟨x, (List.mem_cons.1 hx).resolve_left (fun e => hb (e ▸ hbx)), hbx⟩]
  refine ⟨?_, ?_⟩ <;> intro h
  · simp only [setApplyRedshift, h1 fun o ho => (isBand_false o).2 (h o ho)]
  · obtain ⟨o, ho, hb⟩ := h
    simp only [setApplyRedshift, h2 ⟨o, ho, (isBand_true o).2 hb⟩]

/-! ## Examples -/

/-- A constant source of flux `c`, without bounds. -/
def constSource (name : Name) (c : ℚ) : SEDModel Unit Unit Unit ℚ where
  nodeString := name
  setters := []
  computeSed := fun _ _ ts ws => .ok (ts.map fun _ => ws.map fun _ => c)
  minwave := fun _ => none
  maxwave := fun _ => none
  extrap := none
  applyRedshift := false
  restEffects := []
  obsEffects := []

/-- The hypotheses of `C35_sum` are met: two sources, weights 2 and 10. -/
example : evaluateSingle () [0, 1] [5] [("a".toList, []), ("b".toList, []), ("m".toList, [])] ()
    (.additive "m".toList [] [.sed (constSource "a".toList 3), .sed (constSource "b".toList 4)] [2, 10] []) () =
    .ok ([[46], [46]], ()) := by
  have h : ∀ (n : Name) (c : ℚ), (n = "a".toList ∨ n = "b".toList) →
      (constSource n c).evaluateSingle () [0, 1] [5] [("a".toList, []), ("b".toList, []), ("m".toList, [])] () () =
        .ok ([[c], [c]], ()) := by
    intro n c hn
    rcases hn with rfl | rfl <;> rfl
  rw [evaluateSingle]
  simp only [List.any_cons, isBand, List.any_nil, Bool.or_self, Bool.false_eq_true, if_false, sumSed, evaluateSingle]
  rw [h _ _ (Or.inl rfl)]
  norm_num [addScaled]
  rw [h _ _ (Or.inr rfl)]
  norm_num [addScaled]
  rfl

end LCL.MultiProps
