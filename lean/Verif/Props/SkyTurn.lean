import Verif.Spec.SkyTurn
import Verif.Props.RangeSearch
import Verif.Props.EndToEnd

/-!
# C138: it is the place on the sky that counts, not how it is written

Whole turns in right ascension, the poles, turning the whole sky, and growing the radius.
-/

namespace LCL.SkyTurnProps
open LCL LCL.ObsSpec LCL.SkyTurn LCL.ObsTable Real

theorem turn_angle (x : ℝ) (n : ℤ) : (x + 360 * n) * (π / 180) = x * (π / 180) + n * (2 * π) := by ring

theorem toCart_place {q q' : ℝ × ℝ} (h : SamePlace q q') : toCart q'.1 q'.2 = toCart q.1 q.2 := by
  obtain ⟨h2, h⟩ := h
  unfold toCart
  dsimp only
  rw [h2]
  rcases h with ⟨n, h⟩ | h | h
  · rw [h, turn_angle, cos_add_int_mul_two_pi, sin_add_int_mul_two_pi]
  · have e : cos (q.2 * (π / 180)) = 0 := by
      rw [h, show (90 : ℝ) * (π / 180) = π / 2 by ring, cos_pi_div_two]
    rw [e]; simp
  · have e : cos (q.2 * (π / 180)) = 0 := by
      rw [h, show (-90 : ℝ) * (π / 180) = -(π / 2) by ring, cos_neg, cos_pi_div_two]
    rw [e]; simp

/-- C138: the separation from a place does not depend on how the place is written. -/
theorem C138_separation {q q' p p' : ℝ × ℝ} (h : SamePlace q q') (h' : SamePlace p p') : sep q'.1 q'.2 p'.1 p'.2 = sep q.1 q.2 p.1 p.2 := by
  have key : ∀ a d b e : ℝ, sep a d b e = arccos ((toCart a d).1 * (toCart b e).1 + (toCart a d).2.1 * (toCart b e).2.1 + (toCart a d).2.2 * (toCart b e).2.2) := by
    intro a d b e
    unfold sep toCart
    dsimp only
    rw [cos_sub]
    congr 1
    ring
  rw [key, key, toCart_place h, toCart_place h']

theorem contains_place (fp : Footprint) {q q' : ℝ × ℝ} (h : SamePlace q q') (a d : ℝ) (rot : Option ℝ) :
    fp.containsAt q'.1 q'.2 a d rot = fp.containsAt q.1 q.2 a d rot := by
  unfold Footprint.containsAt rotateToCenter
  rw [toCart_place h]

theorem asks_points {ra dec : QArg} {qs : List (ℝ × ℝ)} (h : Asks ra dec qs) : queryPoints ra dec = .ok qs := by
  cases h with
  | point a d => rfl
  | points qs =>
    have h1 : ∀ f : ℝ × ℝ → ℝ, (qs.map fun q => some (f q)).mapM id = some (qs.map f) := by
      intro f
      clear * -
      induction qs with
      | nil => rfl
      | cons q qs ih => simp [ih]
    unfold queryPoints
    simp only [QArg.values, List.length_map, ne_eq, not_true_eq_false, if_false]
    rw [h1 (·.1), h1 (·.2)]
    simp only [Except.ok.injEq]
    rw [List.zip_map']
    simp

theorem forall₂_map {α β γ : Type} {r : α → β → Prop} {f : α → γ} {g : β → γ} (h : ∀ a b, r a b → f a = g b) {l : List α} {l' : List β} (hl : List.Forall₂ r l l') :
    l.map f = l'.map g := by
  induction hl with
  | nil => rfl
  | cons h1 _ ih => simp [h _ _ h1, ih]

theorem zipWith_forall₂ {α β γ δ : Type} {r : α → β → Prop} {f : α → γ → δ} {g : β → γ → δ} (h : ∀ a b, r a b → ∀ c, g b c = f a c) {l : List α} {l' : List β}
    (hl : List.Forall₂ r l l') (cs : List γ) : List.zipWith g l' cs = List.zipWith f l cs := by
  induction hl generalizing cs with
  | nil => rfl
  | cons h1 _ ih => cases cs with
    | nil => rfl
    | cons c cs => simp [h _ _ h1, ih]

theorem footprintStep_place {t : ObsTable} {fp : Option Footprint} (hfp : HasFootprint t fp) {qs qs' : List (ℝ × ℝ)} (h : List.Forall₂ SamePlace qs qs')
    (inds : List (List Nat)) : footprintStep t qs' inds = footprintStep t qs inds := by
  unfold footprintStep
  rw [hfp]
  cases fp with
  | none => rfl
  | some f =>
    dsimp only [Option.map_some]
    split
    · rfl
    · split
      · rfl
      · split
        · rfl
        · simp only [Except.ok.injEq]
          exact zipWith_forall₂ (fun a b hab s => by simp only [contains_place f hab]) h inds

/-- C138: a search asks about places. For every table (with or without a detector footprint), radius and time bounds, two requests whose points name the same places
have the same outcome, be it an answer or an error. -/
theorem C138_wrap {t : ObsTable} {fp : Option Footprint} (hfp : HasFootprint t fp) {ra dec ra' dec' : QArg} {qs qs' : List (ℝ × ℝ)} (h : Asks ra dec qs)
    (h' : Asks ra' dec' qs') (hs : ra.isScalar = ra'.isScalar) (hq : List.Forall₂ SamePlace qs qs') (radius : Option ℝ) (tmin tmax : TArg) :
    t.rangeSearch ra' dec' radius tmin tmax = t.rangeSearch ra dec radius tmin tmax ∧
      t.isObserved ra' dec' radius tmin tmax = t.isObserved ra dec radius tmin tmax := by
  have hd : ∀ {ra dec : QArg} {qs : List (ℝ × ℝ)}, Asks ra dec qs → dec.isScalar = ra.isScalar := by
    intro ra dec qs h; cases h <;> rfl
  have key : t.rangeSearch ra' dec' radius tmin tmax = t.rangeSearch ra dec radius tmin tmax := by
    unfold ObsTable.rangeSearch
    rw [asks_points h, asks_points h', hd h, hd h', ← hs]
    dsimp only
    have e : ∀ r, (qs'.map fun q => queryBall t.tree (toCart q.1 q.2) (chordRadius r)) = qs.map fun q => queryBall t.tree (toCart q.1 q.2) (chordRadius r) :=
      fun r => (forall₂_map (fun a b hab => by rw [toCart_place hab]) hq).symm
    split
    · rfl
    · rw [e]
      split
      · rfl
      · rw [footprintStep_place hfp hq]
  refine ⟨key, ?_⟩
  unfold ObsTable.isObserved
  rw [key, hs]

theorem sep_turned {d x y q q' : ℝ} (h : Turned d x y) (h' : Turned d q q') (a b : ℝ) : sep q' a y b = sep q a x b := by
  obtain ⟨n, rfl⟩ := h
  obtain ⟨m, rfl⟩ := h'
  unfold sep
  have e : (q + d + 360 * m) * (π / 180) - (x + d + 360 * n) * (π / 180) = (q * (π / 180) - x * (π / 180)) + ((m - n : ℤ) : ℝ) * (2 * π) := by
    push_cast; ring
  rw [e, cos_add_int_mul_two_pi]

theorem rotZ_turned {d x y q q' : ℝ} (h : Turned d x y) (h' : Turned d q q') (a : ℝ) :
    rotZ (y * (π / 180)) (toCart q' a) = rotZ (x * (π / 180)) (toCart q a) := by
  have key : ∀ x q : ℝ, rotZ (x * (π / 180)) (toCart q a) =
      (cos (a * (π / 180)) * cos (q * (π / 180) - x * (π / 180)), cos (a * (π / 180)) * sin (q * (π / 180) - x * (π / 180)), sin (a * (π / 180))) := by
    intro x q
    unfold rotZ toCart
    dsimp only
    rw [cos_sub, sin_sub]
    refine Prod.ext ?_ (Prod.ext ?_ rfl)
    · dsimp only; ring
    · dsimp only; ring
  obtain ⟨n, rfl⟩ := h
  obtain ⟨m, rfl⟩ := h'
  rw [key, key]
  have e : (q + d + 360 * m) * (π / 180) - (x + d + 360 * n) * (π / 180) = (q * (π / 180) - x * (π / 180)) + ((m - n : ℤ) : ℝ) * (2 * π) := by
    push_cast; ring
  rw [e, cos_add_int_mul_two_pi, sin_add_int_mul_two_pi]

theorem contains_turned (fp : Footprint) {d x y q q' : ℝ} (h : Turned d x y) (h' : Turned d q q') (a b : ℝ) (rot : Option ℝ) :
    fp.containsAt q' a y b rot = fp.containsAt q a x b rot := by
  unfold Footprint.containsAt rotateToCenter skyOffset
  rw [rotZ_turned h h']

/-- C138: turning the sky. If every pointing of a survey and the points asked for are turned by the same angle in RA (up to whole turns), the same visits see the points,
whatever the radius, the time bounds and the detector footprint. -/
theorem C138_turned_match {d : ℝ} {t t' : ObsTable} (ht : TurnedTable d t t') {fp : Option Footprint} (hfp : HasFootprint t fp) (hfp' : HasFootprint t' fp)
    {q q' : ℝ × ℝ} (hq : Turned d q.1 q'.1 ∧ q'.2 = q.2) (r : ℝ) (lo hi : Option ℝ) (i : Nat) : Match t' q' r lo hi i ↔ Match t q r lo hi i := by
  unfold Match
  rw [ht.dec, ht.time, ht.rotation, hq.2]
  have foot : ∀ x y b, Turned d x y →
      ((∀ f, t'.footprint = some f → f q'.1 q.2 y b (num t "rotation".toList i) = true) ↔ (∀ f, t.footprint = some f → f q.1 q.2 x b (num t "rotation".toList i) = true)) := by
    intro x y b hxy
    rw [hfp, hfp']
    cases fp with
    | none => simp
    | some f => simp only [Option.map_some, Option.some.injEq, forall_eq']; rw [contains_turned f hxy hq.1]
  rcases ht.ra i with ⟨h1, h2⟩ | ⟨x, y, h1, h2, h3⟩
  · rw [h1, h2]; simp
  · rw [h1, h2]
    constructor
    · rintro ⟨a, b, ha, hb, hs, hlo, hhi, hf⟩
      cases ha
      rw [sep_turned h3 hq.1] at hs
      exact ⟨x, b, rfl, hb, hs, hlo, hhi, (foot x _ b h3).1 hf⟩
    · rintro ⟨a, b, ha, hb, hs, hlo, hhi, hf⟩
      cases ha
      rw [← sep_turned h3 hq.1] at hs
      exact ⟨y, b, rfl, hb, hs, hlo, hhi, (foot _ y b h3).2 hf⟩

theorem sorted_ext {l l' : List Nat} (h : l.Pairwise (· < ·)) (h' : l'.Pairwise (· < ·)) (he : ∀ i, i ∈ l ↔ i ∈ l') : l = l' := by
  have hn : l.Nodup := h.imp (fun h => ne_of_lt h)
  have hn' : l'.Nodup := h'.imp (fun h => ne_of_lt h)
  exact ((List.perm_ext_iff_of_nodup hn hn').2 he).eq_of_pairwise (fun a b _ _ h1 h2 => absurd h1 (by omega)) h h'

theorem search_lists {t : ObsTable} (hb : Built t) {ra dec : QArg} {qs : List (ℝ × ℝ)} (ha : Asks ra dec qs) {r : ℝ} (h0 : 0 ≤ r) (h180 : r ≤ 180) {tmin tmax : TArg}
    {out : SearchOut} (h : t.rangeSearch ra dec (some r) tmin tmax = .ok out) :
    ∃ lists : List (List Nat), lists.length = qs.length ∧ (ra.isScalar = true → ∃ l, lists = [l] ∧ out = .one l) ∧ (ra.isScalar = false → out = .many lists) ∧
      ∀ (k : Nat) q l, qs[k]? = some q → lists[k]? = some l → l.Pairwise (· < ·) ∧ ∀ i, i ∈ l ↔ Match t q r (boundAt tmin k) (boundAt tmax k) i := by
  obtain ⟨r', qs', lists, hr, e1, e2, hl, ho, hm⟩ := RangeSearchProps.C37_exact hb h
  have hr' : r' = r := by
    rcases hr with hr | ⟨hr, -⟩
    · cases hr; rfl
    · cases hr
  subst hr'
  have hqs : qs' = qs := by
    cases ha with
    | point a d =>
      match qs', e1, e2 with
      | [q], e1, e2 =>
        simp only [QArg.values, List.map_cons, List.map_nil, List.cons.injEq, Option.some.injEq, and_true] at e1 e2
        rw [e1, e2]
    | points =>
      simp only [QArg.values] at e1 e2
      refine List.ext_getElem (by simpa using congrArg List.length e1.symm) ?_
      intro k h1 h2
      have f1 := congrArg (fun l => l[k]?) e1
      have f2 := congrArg (fun l => l[k]?) e2
      simp only [List.getElem?_map, List.getElem?_eq_getElem h1, List.getElem?_eq_getElem h2, Option.map_some, Option.some.injEq] at f1 f2
      exact Prod.ext f1.symm f2.symm
  subst hqs
  refine ⟨lists, hl, ?_, ?_, hm h0 h180⟩
  · intro hs
    rcases ho with ho | ⟨-, -, l, h1, h2⟩
    · exfalso
      subst ho
      cases ha with
      | points => cases hs
      | point a d =>
        unfold ObsTable.rangeSearch at h
        have hq : queryPoints (.scalar a) (.scalar d) = .ok [(a, d)] := rfl
        rw [hq] at h
        dsimp only at h
        split at h
        · cases h
        · split at h
          · cases h
          · split at h
            · cases h
            · rw [if_pos ⟨rfl, rfl⟩] at h; cases h
    · exact ⟨l, h1, h2⟩
  · intro hs
    rcases ho with ho | ⟨h1, -⟩
    · exact ho
    · rw [hs] at h1; cases h1

/-- C138: so the two surveys answer a search with the same row numbers. -/
theorem C138_turned {d : ℝ} {t t' : ObsTable} (hb : Built t) (hb' : Built t') (ht : TurnedTable d t t') {fp : Option Footprint} (hfp : HasFootprint t fp)
    (hfp' : HasFootprint t' fp) {ra dec ra' dec' : QArg} {qs qs' : List (ℝ × ℝ)} (ha : Asks ra dec qs) (ha' : Asks ra' dec' qs') (hs : ra.isScalar = ra'.isScalar)
    (hq : List.Forall₂ (fun q q' => Turned d q.1 q'.1 ∧ q'.2 = q.2) qs qs') {r : ℝ} (h0 : 0 ≤ r) (h180 : r ≤ 180) (tmin tmax : TArg) {out out' : SearchOut}
    (h : t.rangeSearch ra dec (some r) tmin tmax = .ok out) (h' : t'.rangeSearch ra' dec' (some r) tmin tmax = .ok out') : out' = out := by
  obtain ⟨ls, e1, e2, e3, e4⟩ := search_lists hb ha h0 h180 h
  obtain ⟨ls', f1, f2, f3, f4⟩ := search_lists hb' ha' h0 h180 h'
  have hlen := hq.length_eq
  have hl : ls' = ls := by
    refine List.ext_getElem (by rw [f1, e1, hlen]) ?_
    intro k h1 h2
    have hk : k < qs.length := by rw [← e1]; exact h2
    have hk' : k < qs'.length := by rw [← f1]; exact h1
    obtain ⟨p1, m1⟩ := e4 k _ _ (List.getElem?_eq_getElem hk) (List.getElem?_eq_getElem h2)
    obtain ⟨p2, m2⟩ := f4 k _ _ (List.getElem?_eq_getElem hk') (List.getElem?_eq_getElem h1)
    refine sorted_ext p2 p1 fun i => ?_
    rw [m1, m2]
    exact C138_turned_match ht hfp hfp' (List.forall₂_iff_get.1 hq |>.2 k hk hk') r _ _ i
  subst hl
  cases hb2 : ra.isScalar with
  | true =>
    obtain ⟨l, g1, g2⟩ := e2 hb2
    obtain ⟨l', g1', g2'⟩ := f2 (hs ▸ hb2)
    rw [g1] at g1'
    cases g1'
    rw [g2, g2']
  | false => rw [e3 hb2, f3 (hs ▸ hb2)]

/-- C138: a larger radius (up to 180 degrees) finds every visit that a smaller one finds. -/
theorem C138_radius {t : ObsTable} (hb : Built t) {a d r r' : ℝ} (h0 : 0 ≤ r) (hr : r ≤ r') (h180 : r' ≤ 180) (tmin tmax : TArg) {l l' : List Nat}
    (h : t.rangeSearch (.scalar a) (.scalar d) (some r) tmin tmax = .ok (.one l)) (h' : t.rangeSearch (.scalar a) (.scalar d) (some r') tmin tmax = .ok (.one l')) :
    ∀ i ∈ l, i ∈ l' := by
  obtain ⟨ls, e1, e2, -, e4⟩ := search_lists hb (.point a d) h0 (hr.trans h180) h
  obtain ⟨ls', f1, f2, -, f4⟩ := search_lists hb (.point a d) (h0.trans hr) h180 h'
  obtain ⟨l1, g1, g2⟩ := e2 rfl
  obtain ⟨l1', g1', g2'⟩ := f2 rfl
  cases g2
  cases g2'
  subst g1 g1'
  intro i hi
  obtain ⟨x, y, hx, hy, hsep, hrest⟩ := ((e4 0 _ _ rfl rfl).2 i).1 hi
  exact ((f4 0 _ _ rfl rfl).2 i).2 ⟨x, y, hx, hy, hsep.trans (mul_le_mul_of_nonneg_right hr (by positivity)), hrest⟩

/-! ### The simulation -/

theorem samePlace_refl (q : ℝ × ℝ) : SamePlace q q := ⟨rfl, Or.inl ⟨0, by simp⟩⟩

/-- The coordinates of the objects, as the search reads them: either some are missing in both lists, or they name the same places. -/
theorem objects_points {states states' : List SimState} (h : List.Forall₂ SameObject states states') :
    (queryPoints (.arr (states.map (·.ra))) (.arr (states.map (·.dec))) = .error .valueError ∧
      queryPoints (.arr (states'.map (·.ra))) (.arr (states'.map (·.dec))) = .error .valueError) ∨
    ∃ qs qs', queryPoints (.arr (states.map (·.ra))) (.arr (states.map (·.dec))) = .ok qs ∧
      queryPoints (.arr (states'.map (·.ra))) (.arr (states'.map (·.dec))) = .ok qs' ∧ List.Forall₂ SamePlace qs qs' := by
  have hbad : ∀ l : List SimState, ((l.map (·.ra)).mapM id = none ∨ (l.map (·.dec)).mapM id = none) →
      queryPoints (.arr (l.map (·.ra))) (.arr (l.map (·.dec))) = .error .valueError := by
    intro l hl
    unfold queryPoints
    simp only [QArg.values, List.length_map, ne_eq, not_true_eq_false, if_false]
    rcases hl with hl | hl
    · rw [hl]
    · rw [hl]
      cases (l.map (·.ra)).mapM id <;> rfl
  have hgood : ∀ (l : List SimState) a d, (l.map (·.ra)).mapM id = some a → (l.map (·.dec)).mapM id = some d →
      queryPoints (.arr (l.map (·.ra))) (.arr (l.map (·.dec))) = .ok (a.zip d) := by
    intro l a d ha hd
    unfold queryPoints
    simp only [QArg.values, List.length_map, ne_eq, not_true_eq_false, if_false]
    rw [ha, hd]
  have key : ((((states.map (·.ra)).mapM id = none ∨ (states.map (·.dec)).mapM id = none) ∧
      ((states'.map (·.ra)).mapM id = none ∨ (states'.map (·.dec)).mapM id = none))) ∨
      ∃ a d a' d', (states.map (·.ra)).mapM id = some a ∧ (states.map (·.dec)).mapM id = some d ∧ (states'.map (·.ra)).mapM id = some a' ∧
        (states'.map (·.dec)).mapM id = some d' ∧ List.Forall₂ SamePlace (a.zip d) (a'.zip d') := by
    induction h with
    | nil => exact Or.inr ⟨[], [], [], [], rfl, rfl, rfl, rfl, .nil⟩
    | cons h1 _ ih =>
      rename_i s s' ss ss' _
      obtain ⟨-, -, h1⟩ := h1
      simp only [List.map_cons, List.mapM_cons, id_eq]
      have hcase : (s.ra = none ∧ s'.ra = none) ∨ (s.dec = none ∧ s'.dec = none) ∨
          ∃ a b d, s.ra = some a ∧ s'.ra = some b ∧ s.dec = some d ∧ s'.dec = some d ∧ SamePlace (a, d) (b, d) := by
        rcases h1 with ⟨e1, e2⟩ | h1
        · cases hr : s.ra with
          | none => exact Or.inl ⟨rfl, e1.trans hr⟩
          | some a => cases hd : s.dec with
            | none => exact Or.inr (Or.inl ⟨rfl, e2.trans hd⟩)
            | some d => exact Or.inr (Or.inr ⟨a, a, d, rfl, e1.trans hr, rfl, e2.trans hd, samePlace_refl _⟩)
        · exact Or.inr (Or.inr h1)
      rcases hcase with ⟨e1, e2⟩ | ⟨e1, e2⟩ | ⟨a, b, d, e1, e2, e3, e4, hp⟩
      · left; rw [e1, e2]; exact ⟨Or.inl rfl, Or.inl rfl⟩
      · left; rw [e1, e2]; exact ⟨Or.inr rfl, Or.inr rfl⟩
      · rw [e1, e2, e3, e4]
        rcases ih with ⟨i1, i2⟩ | ⟨as, ds, as', ds', i1, i2, i3, i4, i5⟩
        · left
          constructor
          · rcases i1 with i1 | i1
            · left; rw [i1]; rfl
            · right; rw [i1]; rfl
          · rcases i2 with i2 | i2
            · left; rw [i2]; rfl
            · right; rw [i2]; rfl
        · right
          refine ⟨a :: as, d :: ds, b :: as', d :: ds', ?_, ?_, ?_, ?_, .cons hp i5⟩
          · rw [i1]; rfl
          · rw [i2]; rfl
          · rw [i3]; rfl
          · rw [i4]; rfl
  rcases key with ⟨k1, k2⟩ | ⟨a, d, a', d', k1, k2, k3, k4, k5⟩
  · exact Or.inl ⟨hbad _ k1, hbad _ k2⟩
  · exact Or.inr ⟨_, _, hgood _ _ _ k1 k2, hgood _ _ _ k3 k4, k5⟩

theorem searchAll_same {t : ObsTable} {fp : Option Footprint} (hfp : HasFootprint t fp) {states states' : List SimState} (h : List.Forall₂ SameObject states states')
    (tmin tmax : TArg) : searchAll t states' tmin tmax = searchAll t states tmin tmax := by
  have key : t.rangeSearch (.arr (states'.map (·.ra))) (.arr (states'.map (·.dec))) none tmin tmax =
      t.rangeSearch (.arr (states.map (·.ra))) (.arr (states.map (·.dec))) none tmin tmax := by
    unfold ObsTable.rangeSearch
    rcases objects_points h with ⟨h1, h2⟩ | ⟨qs, qs', h1, h2, hq⟩
    · rw [h1, h2]
    · rw [h1, h2]
      dsimp only
      have e : ∀ r, (qs'.map fun q => queryBall t.tree (toCart q.1 q.2) (chordRadius r)) = qs.map fun q => queryBall t.tree (toCart q.1 q.2) (chordRadius r) :=
        fun r => (forall₂_map (fun a b hab => by rw [toCart_place hab]) hq).symm
      split
      · rfl
      · rw [e]
        split
        · rfl
        · rw [footprintStep_place hfp hq]; rfl
  unfold searchAll
  rw [key]
  split
  · rfl
  · rfl
  · split
    · rfl
    · rename_i l hl rad hrad
      simp only [Except.ok.injEq]
      refine zipWith_forall₂ ?_ h _
      rintro s s' ⟨-, -, ⟨e1, e2⟩ | ⟨a, b, d, e1, e2, e3, e4, hp⟩⟩ rows
      · rw [e1, e2]
      · rw [e1, e2, e3, e4]
        dsimp only
        rw [toCart_place hp]

theorem objects_same {R : Type} (noise : List ℝ → List ℝ → R → Except Err (List ℝ × R)) (mask : Option (List ℝ → SState ℝ → List Bool)) (saveCols : List Name)
    (ps : List (Prepared R)) {states states' : List SimState} (h : List.Forall₂ SameObject states states') :
    ∀ (k : Nat) (nd : Nested) (r : R), simulateObjects noise mask saveCols ps k states' nd r = simulateObjects noise mask saveCols ps k states nd r := by
  induction h with
  | nil => intro k nd r; rfl
  | cons h1 _ ih =>
    intro k nd r
    simp only [simulateObjects, h1.1, ih]

theorem t0_same {states states' : List SimState} (h : List.Forall₂ SameObject states states') : t0Of states' = t0Of states := by
  have e : states'.map (·.t0) = states.map (·.t0) := (forall₂_map (fun a b hab => hab.2.1.symm) h).symm
  cases h with
  | nil => rfl
  | cons h1 hr =>
    cases hr with
    | nil => simp only [t0Of, h1.2.1]
    | cons h2 hr' => exact congrArg T0Arg.arr e

/-- C138: the lightcurves of objects depend on where they are, not on how their coordinates are written. For every model, list of surveys (with or without detector
footprints), saved columns, time window and noise: if the objects of two runs differ only in whole turns of their RA (or in the RA of an object at a pole), the runs have the
same outcome: the same error, or the same lightcurves and numbers of observations, leaving the random generators in the same state. -/
theorem C138_simulate {R : Type} (isBand : Bool) (ev : EndToEnd.SurveyArg → List ℝ → List Name → SState ℝ → R → Except Err (List ℝ × R)) (draw : R → ℝ × R)
    {states states' : List SimState} (h : List.Forall₂ SameObject states states') (args : List EndToEnd.SurveyArg)
    (hfp : ∀ a ∈ args, ∃ fp, HasFootprint a.table fp) (saveCols : List Name) (offset : Option (List (Option ℝ))) (r : R) :
    (EndToEnd.simulateWith isBand ev draw states' args saveCols offset r).map (fun q => (q.1.ids, q.1.nobs, q.1.nested, q.2)) =
      (EndToEnd.simulateWith isBand ev draw states args saveCols offset r).map (fun q => (q.1.ids, q.1.nobs, q.1.nested, q.2)) := by
  have hl : states'.length = states.length := h.length_eq.symm
  have hprep : ∀ tmin tmax, (args.map (EndToEnd.surveyWith ev)).mapM (prepare states' tmin tmax) = (args.map (EndToEnd.surveyWith ev)).mapM (prepare states tmin tmax) := by
    intro tmin tmax
    clear * - h hfp
    induction args with
    | nil => rfl
    | cons a args ih =>
      rw [List.map_cons, List.mapM_cons, List.mapM_cons, ih (fun b hb => hfp b (List.mem_cons_of_mem _ hb))]
      obtain ⟨fp, hf⟩ := hfp a (by simp)
      have : prepare states' tmin tmax (EndToEnd.surveyWith ev a) = prepare states tmin tmax (EndToEnd.surveyWith ev a) := by
        unfold prepare
        rw [searchAll_same (t := (EndToEnd.surveyWith ev a).table) hf h]
      rw [this]
  unfold EndToEnd.simulateWith simulateLightcurves
  rw [hl, t0_same h]
  split
  · rfl
  · split
    · rfl
    · split
      · rfl
      · split
        · rfl
        · rw [hprep]
          split
          · rfl
          · rw [objects_same _ _ _ _ h]
            split
            · rfl
            · split
              · rfl
              · rfl

/-! ### Concrete cases -/

/-- A visit of (`a`, 0) at time 7. -/
noncomputable def visitRow (a : ℝ) : Dict Name (List Cell) :=
  [("ra".toList, [.num a]), ("dec".toList, [.num 0]), ("time".toList, [.num 7])]

/-- The table of that visit. -/
noncomputable def visitTable (a : ℝ) : ObsTable := ⟨visitRow a, [0], [], [], [], [toCart a 0], none⟩

theorem visit_init (a : ℝ) : ObsTable.init baseRequired (fun t => .ok t) (visitRow a) [0] [] [] none = .ok (visitTable a) := by
  have h1 : numCol (visitRow a) "ra".toList = .ok [a] := rfl
  have h2 : numCol (visitRow a) "dec".toList = .ok [0] := rfl
  have h3 : rename [] (visitRow a) = visitRow a := rfl
  unfold ObsTable.init
  simp only [remap, h3]
  rw [if_pos (show (baseRequired.all fun c => (visitRow a).has c) = true from rfl)]
  simp only [uniqueFilters]
  have h4 : (visitRow a).get? "filter".toList = none := rfl
  rw [h4]
  simp only
  rw [if_neg (by simp [ObsTable.contains, visitRow, Dict.has, Dict.get?])]
  simp only [buildTree, h1, h2]
  rfl

theorem visit_built (a : ℝ) : Built (visitTable a) :=
  .init (by simp [visitRow]) (by simp [visitRow]) (by simp) (by intro u u' h e; cases e; exact h) (visit_init a)

/-- A survey of one visit at RA 350 and the same survey turned by 20 degrees, to RA 10: an object at RA 349 there is seen exactly when one at RA 9 is seen here, and
both searches succeed. -/
example : TurnedTable 20 (visitTable 350) (visitTable 10) ∧ HasFootprint (visitTable 350) none ∧ Turned 20 349 9 ∧
    ∃ out, (visitTable 350).rangeSearch (.scalar 349) (.scalar 0) (some 2) .none (.scalar 9) = .ok out ∧
      (visitTable 10).rangeSearch (.scalar 9) (.scalar 0) (some 2) .none (.scalar 9) = .ok out := by
  have hT : TurnedTable 20 (visitTable 350) (visitTable 10) := by
    refine ⟨?_, fun i => rfl, fun i => rfl, fun i => rfl⟩
    intro i
    cases i with
    | zero => exact Or.inr ⟨350, 10, rfl, rfl, -1, by norm_num⟩
    | succ i => exact Or.inl ⟨rfl, rfl⟩
  have hq : Turned 20 349 9 := ⟨-1, by norm_num⟩
  obtain ⟨o1, h1⟩ := RangeSearchProps.C37_succeeds (visit_built 350) (ra := .scalar 349) (dec := .scalar 0) (qs := [(349, 0)]) (r := 2) (times := [7]) rfl rfl .none (.scalar 9)
    (Or.inl rfl) (Or.inl rfl) (Or.inr (Or.inl ⟨9, rfl, rfl⟩))
  obtain ⟨o2, h2⟩ := RangeSearchProps.C37_succeeds (visit_built 10) (ra := .scalar 9) (dec := .scalar 0) (qs := [(9, 0)]) (r := 2) (times := [7]) rfl rfl .none (.scalar 9)
    (Or.inl rfl) (Or.inl rfl) (Or.inr (Or.inl ⟨9, rfl, rfl⟩))
  have := C138_turned (visit_built 350) (visit_built 10) hT (fp := none) rfl rfl (.point 349 0) (.point 9 0) rfl (.cons ⟨hq, rfl⟩ .nil) (by norm_num) (by norm_num)
    .none (.scalar 9) h1 h2
  exact ⟨hT, rfl, hq, o1, h1, this ▸ h2⟩

/-- RA 370 is RA 10, and every RA at a pole is the pole. -/
example : SamePlace (10, 5) (370, 5) ∧ SamePlace (10, -90) (77, -90) ∧ SamePlace (-3, 5) (357, 5) :=
  ⟨⟨rfl, Or.inl ⟨1, by norm_num⟩⟩, ⟨rfl, Or.inr (Or.inr rfl)⟩, ⟨rfl, Or.inl ⟨1, by norm_num⟩⟩⟩

/-- Two objects written in two ways, seen by an LSST survey: the run of either succeeds, with the same lightcurves. -/
example (draw : Nat → ℝ × Nat) : ∃ res res' r', EndToEnd.simulate EndToEndProps.constModel () draw [EndToEndProps.constState 0, EndToEndProps.constState 90]
      [EndToEndProps.lsstArg] [] none 4 = .ok (res, r') ∧
    EndToEnd.simulate EndToEndProps.constModel () draw [EndToEndProps.constState 360, EndToEndProps.constState (-270)] [EndToEndProps.lsstArg] [] none 4 = .ok (res', r') ∧
    res'.nested = res.nested ∧ res'.nobs = res.nobs := by
  have hobs : ∀ s ∈ [EndToEndProps.constState 0, EndToEndProps.constState 90], EndToEndSpec.Observes EndToEndProps.constModel () s.state (fun _ _ => 10) := by
    intro s hs
    simp only [List.mem_cons, List.not_mem_nil, or_false] at hs
    rcases hs with rfl | rfl <;> exact EndToEndProps.const_observes _
  have harg : ∀ a ∈ [EndToEndProps.lsstArg], a = EndToEndProps.lsstArg := by intro a ha; simpa using ha
  obtain ⟨res, r', h⟩ := EndToEndProps.C110_succeeds (m := EndToEndProps.constModel) (noKw := ()) draw
    (states := [EndToEndProps.constState 0, EndToEndProps.constState 90]) (args := [EndToEndProps.lsstArg])
    (offset := none) (fun _ _ _ => 10) (by simp) (fun s hs a _ => EndToEndProps.observes_in (hobs s hs) a.group) (by intros; norm_num)
    (by intro a ha; rw [harg a ha]; exact EndToEndProps.gGroup_grid) (by intro a ha; rw [harg a ha]; exact EndToEndProps.lsst_sound)
    (by intro s hs; simp only [List.mem_cons, List.not_mem_nil, or_false] at hs; rcases hs with rfl | rfl <;> exact ⟨_, _, rfl, rfl⟩)
    (Or.inl rfl) 4
  have hsame : List.Forall₂ SameObject [EndToEndProps.constState 0, EndToEndProps.constState 90] [EndToEndProps.constState 360, EndToEndProps.constState (-270)] :=
    .cons ⟨rfl, rfl, Or.inr ⟨0, 360, 0, rfl, rfl, rfl, rfl, rfl, Or.inl ⟨1, by norm_num⟩⟩⟩
      (.cons ⟨rfl, rfl, Or.inr ⟨90, -270, 0, rfl, rfl, rfl, rfl, rfl, Or.inl ⟨-1, by norm_num⟩⟩⟩ .nil)
  have key := C138_simulate false (fun a => EndToEnd.evalModel EndToEndProps.constModel () a.group) draw hsame [EndToEndProps.lsstArg]
    (by intro a ha; rw [List.mem_singleton] at ha; subst ha; exact ⟨none, rfl⟩) [] none 4
  unfold EndToEnd.simulate at h ⊢
  rw [h] at key
  cases h2 : EndToEnd.simulateWith false (fun a => EndToEnd.evalModel EndToEndProps.constModel () a.group) draw
      [EndToEndProps.constState 360, EndToEndProps.constState (-270)] [EndToEndProps.lsstArg] [] none 4 with
  | error e => rw [h2] at key; cases key
  | ok q =>
    rw [h2] at key
    simp only [Except.map, Except.ok.injEq, Prod.mk.injEq] at key
    obtain ⟨res', r2⟩ := q
    obtain ⟨-, k1, k2, k3⟩ := key
    dsimp only at k3
    subst k3
    exact ⟨res, res', r2, h, rfl, k2, k1⟩

end LCL.SkyTurnProps
