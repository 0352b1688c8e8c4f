import Verif.Lemmas.ObsTable

/-!
# Property C37 (range_search returns exactly the matching observations)
-/

namespace LCL.RangeSearchProps
open LCL LCL.ObsSpec LCL.ObsLemmas LCL.ObsTable Real

theorem getD_num {t : ObsTable} {name : Name} {l : List ℝ} (h : t.cols.get? name = some (l.map Cell.num)) {i : Nat}
    (hi : i < l.length) : num t name i = some (l.getD i 0) := by
  unfold num cell
  rw [h]
  simp [List.getElem?_eq_getElem hi]

theorem num_none {t : ObsTable} {name : Name} (h : t.cols.get? name = none) (i : Nat) : num t name i = none := by
  unfold num cell; rw [h]; rfl

/-- The points found by the kd-tree. -/
theorem ball_spec {t : ObsTable} (hf : FreshTree t) (q : ℝ × ℝ) (r : ℝ) (h0 : 0 ≤ r) (h180 : r ≤ 180) (i : Nat) :
    i ∈ queryBall t.tree (toCart q.1 q.2) (chordRadius r) ↔
      ∃ ra dec, num t "ra".toList i = some ra ∧ num t "dec".toList i = some dec ∧ sep q.1 q.2 ra dec ≤ r * (π / 180) := by
  obtain ⟨ras, decs, h1, h2, h3, h4, h5⟩ := hf
  unfold queryBall
  simp only [List.mem_filter, List.mem_range, decide_eq_true_eq]
  rw [h5]
  have hlen : (List.zipWith toCart ras decs).length = t.len := by simp [h3, h4]
  rw [hlen]
  by_cases hi : i < t.len
  · have e1 := getD_num h1 (i := i) (by omega)
    have e2 := getD_num h2 (i := i) (by omega)
    have e3 : (List.zipWith toCart ras decs).getD i (0, 0, 0) = toCart (ras.getD i 0) (decs.getD i 0) := by
      have a : i < ras.length := by omega
      have b : i < decs.length := by omega
      simp [List.getElem?_zipWith, List.getElem?_eq_getElem a, List.getElem?_eq_getElem b]
    rw [e3, e1, e2, chord_iff _ _ _ _ _ h0 h180]
    constructor
    · rintro ⟨_, h⟩; exact ⟨_, _, rfl, rfl, h⟩
    · rintro ⟨_, _, h, h', h''⟩; cases h; cases h'; exact ⟨hi, h''⟩
  · constructor
    · rintro ⟨h, _⟩; exact absurd h hi
    · rintro ⟨ra, dec, h, _⟩
      exfalso
      unfold num cell at h
      rw [h1] at h
      simp [List.getElem?_eq_none (show ras.length ≤ i by omega)] at h

theorem ball_sorted (tree : List (ℝ × ℝ × ℝ)) (q : ℝ × ℝ × ℝ) (r : ℝ) : (queryBall tree q r).Pairwise (· < ·) := by
  unfold queryBall
  exact (List.pairwise_lt_range).filter _

theorem timeFilter_spec (times : List ℝ) : ∀ (los his : List (Option ℝ)) (inds : List (List Nat)),
    los.length = inds.length → his.length = inds.length →
    (timeFilter times los his inds).length = inds.length ∧
    ∀ (k : Nat) (lo hi : Option ℝ) (s : List Nat), los[k]? = some lo → his[k]? = some hi → inds[k]? = some s →
      (timeFilter times los his inds)[k]? =
        some (s.filter fun i => aboveBound lo (times.getD i 0) && belowBound hi (times.getD i 0)) := by
  intro los
  induction los with
  | nil => intro his inds h1 h2; have : inds = [] := List.length_eq_zero_iff.1 h1.symm; subst this; simp [timeFilter]
  | cons lo los ih =>
    intro his inds h1 h2
    cases inds with
    | nil => simp at h1
    | cons s inds =>
      cases his with
      | nil => simp at h2
      | cons hi his =>
        obtain ⟨a, b⟩ := ih his inds (by simpa using h1) (by simpa using h2)
        refine ⟨by simp [timeFilter, a], ?_⟩
        intro k lo' hi' s' e1 e2 e3
        cases k with
        | zero => simp at e1 e2 e3; subst e1 e2 e3; simp [timeFilter]
        | succ k => simp at e1 e2 e3; simpa [timeFilter] using b k lo' hi' s' e1 e2 e3

theorem boundAt_values {a : TArg} {n : Nat} {l : List (Option ℝ)} (h : a.values n = .ok l) :
    l.length = n ∧ ∀ k, k < n → l[k]? = some (boundAt a k) := by
  cases a with
  | none =>
    cases h
    refine ⟨by simp, fun k hk => ?_⟩
    simp [boundAt, hk]
  | scalar x =>
    simp only [TArg.values] at h
    split at h
    · rename_i hn; cases h; subst hn
      refine ⟨rfl, fun k hk => ?_⟩
      have : k = 0 := by omega
      subst this; rfl
    · cases h
  | arr l' =>
    simp only [TArg.values] at h
    split at h
    · rename_i hn; cases h
      refine ⟨by simp [hn], fun k hk => ?_⟩
      simp [boundAt, List.getElem?_eq_getElem (show k < l'.length by omega)]
    · cases h

/-- After the time step, entry `k` holds the matches within the bounds of query `k`. -/
theorem timeStep_spec {t : ObsTable} (hwf : WF t) {tmin tmax : TArg} {inds out : List (List Nat)}
    (hin : ∀ s ∈ inds, ∀ i ∈ s, i < t.len) (h : timeStep t tmin tmax inds = .ok out) :
    out.length = inds.length ∧ ∀ (k : Nat) (s : List Nat), inds[k]? = some s → ∃ s', out[k]? = some s' ∧
      (s.Pairwise (· < ·) → s'.Pairwise (· < ·)) ∧
      ∀ i, i ∈ s' ↔ i ∈ s ∧ (∀ b, boundAt tmin k = some b → ∃ tm, num t "time".toList i = some tm ∧ b ≤ tm) ∧
        (∀ b, boundAt tmax k = some b → ∃ tm, num t "time".toList i = some tm ∧ tm ≤ b) := by
  unfold timeStep at h
  by_cases hn : tmin.isNone = true ∧ tmax.isNone = true
  · rw [if_pos hn] at h
    cases h
    refine ⟨rfl, fun k s hs => ⟨s, hs, id, fun i => ?_⟩⟩
    have e1 : boundAt tmin k = none := by
      cases tmin <;> simp_all [TArg.isNone, boundAt]
    have e2 : boundAt tmax k = none := by
      cases tmax <;> simp_all [TArg.isNone, boundAt]
    simp [e1, e2]
  · rw [if_neg hn] at h
    cases ht : numCol t.cols "time".toList with
    | error e => rw [ht] at h; cases h
    | ok times =>
      rw [ht] at h
      simp only at h
      cases hlo : tmin.values inds.length with
      | error e => rw [hlo] at h; cases h
      | ok los =>
        rw [hlo] at h
        simp only at h
        cases hhi : tmax.values inds.length with
        | error e => rw [hhi] at h; cases h
        | ok his =>
          rw [hhi] at h
          cases h
          obtain ⟨l1, v1⟩ := boundAt_values hlo
          obtain ⟨l2, v2⟩ := boundAt_values hhi
          obtain ⟨a, b⟩ := timeFilter_spec times los his inds l1 l2
          have hcol := numCol_ok.1 ht
          have hlen : times.length = t.len := by simpa using hwf.1 _ (Dict.mem_of_get? hcol)
          refine ⟨a, fun k s hs => ?_⟩
          have hk : k < inds.length := (List.getElem?_eq_some_iff.1 hs).1
          refine ⟨_, b k _ _ s (v1 k hk) (v2 k hk) hs, fun hp => hp.filter _, fun i => ?_⟩
          rw [List.mem_filter]
          constructor
          · rintro ⟨hi, hb⟩
            have hil : i < times.length := by rw [hlen]; exact hin s (List.mem_of_getElem? hs) i hi
            have hnum := getD_num hcol hil
            rw [Bool.and_eq_true] at hb
            refine ⟨hi, fun x hx => ⟨_, hnum, ?_⟩, fun x hx => ⟨_, hnum, ?_⟩⟩
            · rw [hx] at hb; simpa [aboveBound] using hb.1
            · rw [hx] at hb; simpa [belowBound] using hb.2
          · rintro ⟨hi, hlo', hhi'⟩
            have hil : i < times.length := by rw [hlen]; exact hin s (List.mem_of_getElem? hs) i hi
            have hnum := getD_num hcol hil
            refine ⟨hi, ?_⟩
            rw [Bool.and_eq_true]
            constructor
            · cases hx : boundAt tmin k with
              | none => rfl
              | some x =>
                obtain ⟨tm, e, hle⟩ := hlo' x hx
                rw [hnum] at e; cases e; simpa [aboveBound] using hle
            · cases hx : boundAt tmax k with
              | none => rfl
              | some x =>
                obtain ⟨tm, e, hle⟩ := hhi' x hx
                rw [hnum] at e; cases e; simpa [belowBound] using hle

/-- After the footprint step, entry `k` holds the matches whose footprint contains query point `k`. -/
theorem footprintStep_spec {t : ObsTable} (hwf : WF t) (hf : FreshTree t) {qs : List (ℝ × ℝ)} {inds out : List (List Nat)}
    (hl : qs.length = inds.length) (hin : ∀ s ∈ inds, ∀ i ∈ s, i < t.len) (h : footprintStep t qs inds = .ok out) :
    out.length = inds.length ∧ ∀ (k : Nat) (q : ℝ × ℝ) (s : List Nat), qs[k]? = some q → inds[k]? = some s →
      ∃ s', out[k]? = some s' ∧ (s.Pairwise (· < ·) → s'.Pairwise (· < ·)) ∧
      ∀ i, i ∈ s' ↔ i ∈ s ∧ ∀ fp, t.footprint = some fp → ∀ ra dec, num t "ra".toList i = some ra →
        num t "dec".toList i = some dec → fp q.1 q.2 ra dec (num t "rotation".toList i) = true := by
  unfold footprintStep at h
  cases hfp : t.footprint with
  | none =>
    rw [hfp] at h
    cases h
    exact ⟨rfl, fun k q s _ hs => ⟨s, hs, id, by simp⟩⟩
  | some fp =>
    rw [hfp] at h
    simp only at h
    obtain ⟨ras, decs, h1, h2, h3, h4, h5⟩ := hf
    rw [numCol_ok.2 h1, numCol_ok.2 h2] at h
    simp only at h
    split at h
    · cases h
    · rename_i rots hrots
      cases h
      have hrot : ∀ i, i < t.len → num t "rotation".toList i = rots.map fun l => l.getD i 0 := by
        intro i hi
        split at hrots
        · split at hrots
          · cases hrots
          · rename_i l hl'
            cases hrots
            have hcol := numCol_ok.1 hl'
            have : l.length = t.len := by simpa using hwf.1 _ (Dict.mem_of_get? hcol)
            exact getD_num hcol (by omega)
        · rename_i hno
          cases hrots
          apply num_none
          rw [Dict.get?_eq_none_iff]
          intro hm
          exact hno ((Dict.has_iff _ _).2 hm)
      refine ⟨by simp [hl], fun k q s hq hs => ⟨_, by simp [List.getElem?_zipWith, hq, hs]; rfl, fun hp => hp.filter _, fun i => ?_⟩⟩
      rw [List.mem_filter]
      constructor
      · rintro ⟨hi, hb⟩
        refine ⟨hi, fun fp' e ra dec e1 e2 => ?_⟩
        cases e
        have hil := hin s (List.mem_of_getElem? hs) i hi
        rw [getD_num h1 (by omega)] at e1
        rw [getD_num h2 (by omega)] at e2
        cases e1; cases e2
        rw [hrot i hil]
        exact hb
      · rintro ⟨hi, hall⟩
        refine ⟨hi, ?_⟩
        have hil := hin s (List.mem_of_getElem? hs) i hi
        have := hall fp rfl _ _ (getD_num h1 (by omega)) (getD_num h2 (by omega))
        rwa [hrot i hil] at this

theorem queryPoints_ok {ra dec : QArg} {qs : List (ℝ × ℝ)} (h : queryPoints ra dec = .ok qs) :
    ra.values = qs.map (fun q => some q.1) ∧ dec.values = qs.map (fun q => some q.2) := by
  unfold queryPoints at h
  have key : (if ra.values.length ≠ dec.values.length then Except.error Err.valueError
    else match ra.values.mapM id, dec.values.mapM id with
      | some ras, some decs => Except.ok (ras.zip decs)
      | _, _ => Except.error Err.valueError) = Except.ok qs := by
    cases ra <;> cases dec <;> first | exact h | cases h
  clear h
  split at key
  · cases key
  · rename_i hl
    split at key
    · rename_i ras decs e1 e2
      cases key
      rw [mapM_id_some] at e1 e2
      rw [e1, e2] at hl ⊢
      simp only [List.length_map, ne_eq, not_not] at hl
      constructor
      · apply List.ext_getElem?; intro i
        simp only [List.getElem?_map, List.zip, List.getElem?_zipWith]
        rcases Nat.lt_or_ge i ras.length with hi | hi
        · have hi' : i < decs.length := by omega
          simp [List.getElem?_eq_getElem hi, List.getElem?_eq_getElem hi']
        · simp [List.getElem?_eq_none hi]
      · apply List.ext_getElem?; intro i
        simp only [List.getElem?_map, List.zip, List.getElem?_zipWith]
        rcases Nat.lt_or_ge i ras.length with hi | hi
        · have hi' : i < decs.length := by omega
          simp [List.getElem?_eq_getElem hi, List.getElem?_eq_getElem hi']
        · have hi' : decs.length ≤ i := by omega
          simp [List.getElem?_eq_none hi, List.getElem?_eq_none hi']
    · cases key

/-- C37. On any table reached from a constructor, a successful search with a radius between 0 and 180 degrees
gives one list per query point (a single list when both coordinates are scalars); the list of query `k` holds,
in increasing order and without repetition, exactly the row numbers that match query `k` under the bounds of
query `k`. -/
theorem C37_exact {t : ObsTable} (hb : Built t) {ra dec : QArg} {radius : Option ℝ} {tmin tmax : TArg} {out : SearchOut}
    (h : t.rangeSearch ra dec radius tmin tmax = .ok out) :
    ∃ (r : ℝ) (qs : List (ℝ × ℝ)) (lists : List (List Nat)), (radius = some r ∨ radius = none ∧ t.radius = some r) ∧
      ra.values = qs.map (fun q => some q.1) ∧ dec.values = qs.map (fun q => some q.2) ∧
      lists.length = qs.length ∧
      (out = .many lists ∨ ra.isScalar = true ∧ dec.isScalar = true ∧ ∃ l, lists = [l] ∧ out = .one l) ∧
      (0 ≤ r → r ≤ 180 → ∀ (k : Nat) (q : ℝ × ℝ) (l : List Nat), qs[k]? = some q → lists[k]? = some l →
        l.Pairwise (· < ·) ∧ ∀ i, i ∈ l ↔ Match t q r (boundAt tmin k) (boundAt tmax k) i) := by
  obtain ⟨hwf, hf⟩ := built_spec hb
  unfold rangeSearch at h
  cases hq : queryPoints ra dec with
  | error e => rw [hq] at h; cases h
  | ok qs =>
    rw [hq] at h
    simp only at h
    obtain ⟨hra, hdec⟩ := queryPoints_ok hq
    split at h
    · cases h
    · rename_i r hr
      have htree : t.tree.length = t.len := by
        obtain ⟨ras, decs, _, _, h3, h4, h5⟩ := hf
        rw [h5]; simp [h3, h4]
      have hin0 : ∀ s ∈ (qs.map fun q => queryBall t.tree (toCart q.1 q.2) (chordRadius r)), ∀ i ∈ s, i < t.len := by
        intro s hs i hi
        obtain ⟨q, _, rfl⟩ := List.mem_map.1 hs
        unfold queryBall at hi
        simp only [List.mem_filter, List.mem_range] at hi
        omega
      cases h1 : timeStep t tmin tmax (qs.map fun q => queryBall t.tree (toCart q.1 q.2) (chordRadius r)) with
      | error e => rw [h1] at h; cases h
      | ok i1 =>
        rw [h1] at h
        simp only at h
        obtain ⟨l1, s1⟩ := timeStep_spec hwf hin0 h1
        have hin1 : ∀ s ∈ i1, ∀ i ∈ s, i < t.len := by
          intro s hs i hi
          obtain ⟨k, hk, rfl⟩ := List.getElem_of_mem hs
          have hk' : k < (qs.map fun q => queryBall t.tree (toCart q.1 q.2) (chordRadius r)).length := by omega
          obtain ⟨s', e', _, hm⟩ := s1 k _ (List.getElem?_eq_getElem hk')
          rw [List.getElem?_eq_getElem hk] at e'
          cases e'
          exact hin0 _ (List.getElem_mem hk') i ((hm i).1 hi).1
        cases h2 : footprintStep t qs i1 with
        | error e => rw [h2] at h; cases h
        | ok i2 =>
          rw [h2] at h
          simp only at h
          have hl1 : qs.length = i1.length := by rw [l1]; simp
          obtain ⟨l2, s2⟩ := footprintStep_spec hwf hf hl1 hin1 h2
          refine ⟨r, qs, i2, ?_, hra, hdec, by omega, ?_, ?_⟩
          · cases radius with
            | none => exact Or.inr ⟨rfl, by simpa using hr⟩
            | some x => left; simpa using hr
          · split at h
            · rename_i hsc
              cases h
              right
              refine ⟨hsc.1, hsc.2, i2.headD [], ?_, rfl⟩
              have : i2.length = 1 := by
                have hone : ra.values.length = 1 := by
                  cases hra' : ra with
                  | scalar x => rfl
                  | none => rw [hra'] at hsc; simp [QArg.isScalar] at hsc
                  | arr l => rw [hra'] at hsc; simp [QArg.isScalar] at hsc
                rw [hra] at hone
                simp only [List.length_map] at hone
                omega
              match i2, this with
              | [x], _ => rfl
            · cases h; exact Or.inl rfl
          · intro h0 h180 k q l hk hl
            have e0 : (qs.map fun q => queryBall t.tree (toCart q.1 q.2) (chordRadius r))[k]? =
                some (queryBall t.tree (toCart q.1 q.2) (chordRadius r)) := by simp [hk]
            obtain ⟨s', e1, p1, m1⟩ := s1 k _ e0
            obtain ⟨s'', e2, p2, m2⟩ := s2 k q s' hk e1
            rw [hl] at e2
            cases e2
            refine ⟨p2 (p1 (ball_sorted _ _ _)), fun i => ?_⟩
            rw [m2 i, m1 i, ball_spec hf q r h0 h180]
            unfold Match
            constructor
            · rintro ⟨⟨⟨a, d, n1, n2, hs⟩, b1, b2⟩, hfp⟩
              exact ⟨a, d, n1, n2, hs, b1, b2, fun fp e => hfp fp e a d n1 n2⟩
            · rintro ⟨a, d, n1, n2, hs, b1, b2, hfp⟩
              refine ⟨⟨⟨a, d, n1, n2, hs⟩, b1, b2⟩, fun fp e a' d' n1' n2' => ?_⟩
              rw [n1] at n1'; rw [n2] at n2'
              cases n1'; cases n2'
              exact hfp fp e

/-- C37: assigning the radius of a table: a radius of zero or less raises ValueError; a positive one is what the
table then reports, changes no row, and is the radius of every later search that gives none. -/
theorem C37_set_radius (t : ObsTable) (x : ℝ) :
    (x ≤ 0 → t.setRadius x = .error .valueError) ∧
    (0 < x → ∃ t', t.setRadius x = .ok t' ∧ t'.radius = some x ∧ t'.cols = t.cols ∧ t'.len = t.len ∧
      ∀ ra dec tmin tmax, t'.rangeSearch ra dec none tmin tmax = t'.rangeSearch ra dec (some x) tmin tmax) := by
  refine ⟨fun h => by simp [setRadius, h], fun h => ⟨_, by rw [setRadius, if_neg (not_le.2 h)], ?_⟩⟩
  have hr : ObsTable.radius { t with survey := t.survey.set "radius".toList (.num x) } = some x := by
    simp [ObsTable.radius, Dict.get?_set_self]
  refine ⟨hr, rfl, rfl, fun ra dec tmin tmax => ?_⟩
  unfold ObsTable.rangeSearch
  rw [hr]
  rfl

/-- C37: malformed requests raise ValueError: a missing coordinate, coordinates of different lengths, a None
among them, or no radius at all. -/
theorem C37_bad_query_raises (t : ObsTable) (ra dec : QArg) (radius : Option ℝ) (tmin tmax : TArg)
    (h : ra = .none ∨ dec = .none ∨ ra.values.length ≠ dec.values.length ∨ none ∈ ra.values ∨ none ∈ dec.values ∨
      (radius = none ∧ t.radius = none)) :
    t.rangeSearch ra dec radius tmin tmax = .error .valueError := by
  have hq : ∀ e, queryPoints ra dec = .error e → e = .valueError := by
    intro e he
    unfold queryPoints at he
    split at he
    · cases he; rfl
    · cases he; rfl
    · split at he
      · cases he; rfl
      · split at he
        · cases he
        · cases he; rfl
  unfold rangeSearch
  cases hp : queryPoints ra dec with
  | error e => rw [hq e hp]
  | ok qs =>
    obtain ⟨e1, e2⟩ := queryPoints_ok hp
    rcases h with rfl | rfl | h | h | h | ⟨rfl, h⟩
    · cases hp
    · unfold queryPoints at hp; cases ra <;> cases hp
    · rw [e1, e2] at h; simp at h
    · rw [e1] at h; simp at h
    · rw [e2] at h; simp at h
    · simp [h]

/-- C37: a time bound that is an array of another length than the number of query points raises ValueError. -/
theorem C37_bad_bounds_raise {t : ObsTable} {ra dec : QArg} {qs : List (ℝ × ℝ)} {r : ℝ} {times : List ℝ}
    (hq : queryPoints ra dec = .ok qs) (ht : numCol t.cols "time".toList = .ok times) (tmin tmax : TArg)
    (h : (∃ l, tmin = .arr l ∧ l.length ≠ qs.length) ∨ ∃ l, tmax = .arr l ∧ l.length ≠ qs.length) :
    t.rangeSearch ra dec (some r) tmin tmax = .error .valueError := by
  unfold rangeSearch
  rw [hq]
  have hr : (some r <|> t.radius) = some r := rfl
  simp only [hr]
  have hv : ∀ (a : TArg) e, a.values qs.length = .error e → e = .valueError := by
    intro a e h
    cases a with
    | none => cases h
    | scalar x => simp only [TArg.values] at h; split at h <;> cases h; rfl
    | arr l => simp only [TArg.values] at h; split at h <;> cases h; rfl
  have : timeStep t tmin tmax (qs.map fun q => queryBall t.tree (toCart q.1 q.2) (chordRadius r)) = .error .valueError := by
    unfold timeStep
    have hn : ¬ (tmin.isNone = true ∧ tmax.isNone = true) := by
      rcases h with ⟨l, rfl, _⟩ | ⟨l, rfl, _⟩ <;> simp [TArg.isNone]
    rw [if_neg hn, ht]
    simp only [List.length_map]
    rcases h with ⟨l, rfl, hl⟩ | ⟨l, rfl, hl⟩
    · simp [TArg.values, hl]
    · cases h1 : tmin.values qs.length with
      | error e => rw [hv _ e h1]
      | ok los => simp [TArg.values, hl]
  rw [this]

/-- C37 fails for scalar time bounds (which the documentation of the error message allows) as soon as there is
more than one query point: they raise ValueError. -/
theorem C37_scalar_bounds_counterexample {t : ObsTable} {ra dec : QArg} {qs : List (ℝ × ℝ)} {r : ℝ} {times : List ℝ}
    (hq : queryPoints ra dec = .ok qs) (hn : qs.length ≠ 1) (ht : numCol t.cols "time".toList = .ok times)
    (x : ℝ) (tmax : TArg) : t.rangeSearch ra dec (some r) (.scalar x) tmax = .error .valueError := by
  unfold rangeSearch
  rw [hq]
  have hr : (some r <|> t.radius) = some r := rfl
  simp only [hr, timeStep, TArg.isNone, Bool.false_eq_true, false_and, if_false, ht, TArg.values, List.length_map, hn]

/-- C37: a well-formed request succeeds: matching coordinates, a radius, bounds of the right shape, numeric
times and rotations. -/
theorem C37_succeeds {t : ObsTable} (hb : Built t) {ra dec : QArg} {qs : List (ℝ × ℝ)} {r : ℝ} {times : List ℝ}
    (hq : queryPoints ra dec = .ok qs) (ht : t.cols.get? "time".toList = some (times.map .num)) (tmin tmax : TArg)
    (hrot : t.cols.has "rotation".toList = false ∨ ∃ rots : List ℝ, t.cols.get? "rotation".toList = some (rots.map .num))
    (hmin : tmin = .none ∨ (∃ x, tmin = .scalar x ∧ qs.length = 1) ∨ ∃ l, tmin = .arr l ∧ l.length = qs.length)
    (hmax : tmax = .none ∨ (∃ x, tmax = .scalar x ∧ qs.length = 1) ∨ ∃ l, tmax = .arr l ∧ l.length = qs.length) :
    ∃ out, t.rangeSearch ra dec (some r) tmin tmax = .ok out := by
  obtain ⟨hwf, ras, decs, h1, h2, -⟩ := built_spec hb
  have hv : ∀ a : TArg, (a = .none ∨ (∃ x, a = .scalar x ∧ qs.length = 1) ∨ ∃ l, a = .arr l ∧ l.length = qs.length) →
      ∃ l, a.values qs.length = .ok l := by
    rintro a (rfl | ⟨x, rfl, h⟩ | ⟨l, rfl, h⟩)
    · exact ⟨_, rfl⟩
    · exact ⟨[some x], by simp [TArg.values, h]⟩
    · exact ⟨l.map some, by simp [TArg.values, h]⟩
  obtain ⟨los, hlo⟩ := hv _ hmin
  obtain ⟨his, hhi⟩ := hv _ hmax
  have hts : ∃ i1, timeStep t tmin tmax (qs.map fun q => queryBall t.tree (toCart q.1 q.2) (chordRadius r)) = .ok i1 := by
    unfold timeStep
    split
    · exact ⟨_, rfl⟩
    · rw [numCol_ok.2 ht]
      simp only [List.length_map, hlo, hhi]
      exact ⟨_, rfl⟩
  obtain ⟨i1, hi1⟩ := hts
  have hfs : ∃ i2, footprintStep t qs i1 = .ok i2 := by
    unfold footprintStep
    split
    · exact ⟨_, rfl⟩
    · rw [numCol_ok.2 h1, numCol_ok.2 h2]
      simp only
      rcases hrot with hrot | ⟨rots, hrot⟩
      · rw [hrot]
        simp only [Bool.false_eq_true, if_false]
        exact ⟨_, rfl⟩
      · have : t.cols.has "rotation".toList = true := by unfold Dict.has; rw [hrot]; rfl
        rw [this, numCol_ok.2 hrot]
        simp only [if_true]
        exact ⟨_, rfl⟩
  obtain ⟨i2, hi2⟩ := hfs
  have hr : (some r <|> t.radius) = some r := rfl
  unfold rangeSearch
  rw [hq]
  simp only [hr, hi1, hi2]
  split
  · exact ⟨_, rfl⟩
  · exact ⟨_, rfl⟩

theorem pos_iff_mem (l : List Nat) : decide (0 < l.length) = true ↔ ∃ i, i ∈ l := by
  cases l with
  | nil => simp
  | cons x l => simp

/-- C37, is_observed: for two scalars the answer is whether some row matches; for two arrays there is one
answer per point, telling whether some row matches that point. -/
theorem C37_is_observed {t : ObsTable} (hb : Built t) {ra dec : QArg} {r : ℝ} (h0 : 0 ≤ r) (h180 : r ≤ 180)
    {tmin tmax : TArg} {out : SeenOut} (hs : ra.isScalar = dec.isScalar)
    (h : t.isObserved ra dec (some r) tmin tmax = .ok out) :
    ∃ qs : List (ℝ × ℝ), ra.values = qs.map (fun q => some q.1) ∧ dec.values = qs.map (fun q => some q.2) ∧
      ((ra.isScalar = true ∧ ∃ b, out = .one b ∧
          ∀ (q : ℝ × ℝ), qs[0]? = some q → (b = true ↔ ∃ i, Match t q r (boundAt tmin 0) (boundAt tmax 0) i)) ∨
       (ra.isScalar = false ∧ ∃ bs : List Bool, out = .many bs ∧ bs.length = qs.length ∧ ∀ (k : Nat) (q : ℝ × ℝ) (b : Bool),
          qs[k]? = some q → bs[k]? = some b → (b = true ↔ ∃ i, Match t q r (boundAt tmin k) (boundAt tmax k) i))) := by
  unfold isObserved at h
  cases hrs : t.rangeSearch ra dec (some r) tmin tmax with
  | error e => rw [hrs] at h; cases h
  | ok o =>
    rw [hrs] at h
    obtain ⟨r', qs, lists, hr, e1, e2, hl, ho, hm⟩ := C37_exact hb hrs
    have : r' = r := by
      rcases hr with hr | ⟨hr, _⟩
      · cases hr; rfl
      · cases hr
    subst this
    have hm := hm h0 h180
    refine ⟨qs, e1, e2, ?_⟩
    cases o with
    | one l =>
      simp only at h
      rcases ho with ho | ⟨s1, s2, l', rfl, ho⟩
      · cases ho
      · cases ho; cases h
        refine Or.inl ⟨s1, _, rfl, fun q hq => ?_⟩
        rw [pos_iff_mem]
        exact exists_congr fun i => (hm 0 q l hq rfl).2 i
    | many l =>
      simp only at h
      by_cases hsc : ra.isScalar = true
      · exfalso
        unfold rangeSearch at hrs
        have hd : ra.isScalar = true ∧ dec.isScalar = true := ⟨hsc, hs ▸ hsc⟩
        split at hrs
        · cases hrs
        · split at hrs
          · cases hrs
          · dsimp only at hrs
            split at hrs
            · cases hrs
            · split at hrs
              · cases hrs
              · rw [if_pos hd] at hrs; cases hrs
      · rw [if_neg hsc] at h
        cases h
        have ho : l = lists := by
          rcases ho with ho | ⟨s1, _⟩
          · cases ho; rfl
          · exact absurd s1 hsc
        subst ho
        refine Or.inr ⟨by simpa using hsc, _, rfl, by simp [hl], fun k q b hq hb' => ?_⟩
        rw [List.getElem?_map] at hb'
        cases hlk : l[k]? with
        | none => rw [hlk] at hb'; cases hb'
        | some s =>
          rw [hlk] at hb'
          simp only [Option.map_some, Option.some.injEq] at hb'
          subst hb'
          rw [pos_iff_mem]
          exact exists_congr fun i => (hm k q s hq hlk).2 i

/-! ## Where the property fails -/

/-- One pointing at (0, 0) at time 7. -/
def oneRow : Dict Name (List Cell) :=
  [("ra".toList, [.num 0]), ("dec".toList, [.num 0]), ("time".toList, [.num 7])]

/-- The table of that row. -/
noncomputable def oneTable : ObsTable := ⟨oneRow, [0], [], [], [], [toCart 0 0], none⟩

theorem oneTable_init : ObsTable.init baseRequired (fun t => .ok t) oneRow [0] [] [] none = .ok oneTable := by
  have h1 : numCol oneRow "ra".toList = .ok [0] := rfl
  have h2 : numCol oneRow "dec".toList = .ok [0] := rfl
  have h3 : rename [] oneRow = oneRow := rfl
  unfold ObsTable.init
  simp only [remap, h3]
  rw [if_pos (by decide)]
  simp only [uniqueFilters]
  have h4 : oneRow.get? "filter".toList = none := rfl
  rw [h4]
  simp only
  rw [if_neg (by simp [ObsTable.contains, oneRow, Dict.has, Dict.get?])]
  simp only [buildTree, h1, h2]
  rfl

/-- The hypotheses of the theorems above are met: the table is reachable, and a search succeeds on it. -/
example : Built oneTable ∧ ∃ out, oneTable.rangeSearch (.scalar 1) (.scalar 1) (some 2) .none (.scalar 9) = .ok out := by
  have hb : Built oneTable := .init (by simp [oneRow]) (by simp [oneRow]) (by simp) (by
    intro u u' h e; cases e; exact h) oneTable_init
  refine ⟨hb, C37_succeeds hb (qs := [(1, 1)]) (times := [7]) rfl rfl _ _ (Or.inl rfl) (Or.inl rfl)
    (Or.inr (Or.inl ⟨9, rfl, rfl⟩))⟩

theorem dist_self (p : ℝ × ℝ × ℝ) : dist3 p p = 0 := by simp [dist3]

/-- C37 fails when a pointing column is overwritten: the search still uses the old pointings. The pointing
is moved from (0, 0) to (180, 0); the search at (0, 0) still finds it. -/
theorem C37_overwrite_counterexample : ∃ t', oneTable.addColumn "ra".toList (.scalar (.num 180)) true = .ok t' ∧
    t'.rangeSearch (.scalar 0) (.scalar 0) (some 1) .none .none = .ok (.one [0]) ∧
    ¬ Match t' (0, 0) 1 none none 0 := by
  have hpi := pi_pos
  refine ⟨_, rfl, ?_, ?_⟩
  · have hq : queryPoints (.scalar 0) (.scalar 0) = .ok [(0, 0)] := rfl
    have hr : ∀ t : ObsTable, (some (1 : ℝ) <|> t.radius) = some 1 := fun _ => rfl
    have hchord : 0 ≤ chordRadius 1 := by
      unfold chordRadius
      have : 0 ≤ sin (1 * (π / 180) / 2) := sin_nonneg_of_nonneg_of_le_pi (by positivity) (by linarith)
      linarith
    have hball : queryBall [toCart 0 0] (toCart 0 0) (chordRadius 1) = [0] := by
      unfold queryBall
      simp only [List.length_singleton, List.range_one]
      rw [List.filter_cons]
      simp [dist_self, hchord]
    unfold rangeSearch
    rw [hq]
    simp only [hr, oneTable, List.map_cons, List.map_nil, hball, timeStep, TArg.isNone, and_self, if_true, footprintStep,
      QArg.isScalar, List.headD_cons]
  · rintro ⟨ra, dec, h1, h2, h3, -⟩
    have e1 : ra = 180 := by simp [num, cell, oneTable, oneRow, Dict.get?, Dict.set, ObsTable.len] at h1; exact h1.symm
    have e2 : dec = 0 := by simp [num, cell, oneTable, oneRow, Dict.get?, Dict.set, ObsTable.len] at h2; exact h2.symm
    subst e1 e2
    unfold sep at h3
    have : (180 : ℝ) * (π / 180) = π := by ring
    simp [this] at h3
    linarith

/-- C37 fails for a radius above 180 degrees: the search radius shrinks again. Every point is within 360
degrees of every pointing, but the search at (90, 0) with radius 360 does not find the pointing (0, 0). -/
theorem C37_large_radius_counterexample :
    oneTable.rangeSearch (.scalar 90) (.scalar 0) (some 360) .none .none = .ok (.one []) ∧
    Match oneTable (90, 0) 360 none none 0 := by
  have hpi := pi_pos
  constructor
  · have hq : queryPoints (.scalar 90) (.scalar 0) = .ok [(90, 0)] := rfl
    have hr : ∀ t : ObsTable, (some (360 : ℝ) <|> t.radius) = some 360 := fun _ => rfl
    have hchord : chordRadius 360 = 0 := by
      unfold chordRadius
      rw [show 360 * (π / 180) / 2 = π by ring]; simp
    have hd : dist3 (toCart 0 0) (toCart 90 0) = √2 := by
      unfold dist3 toCart
      have : (90 : ℝ) * (π / 180) = π / 2 := by ring
      simp [this]
      norm_num
    have hball : queryBall [toCart 0 0] (toCart 90 0) (chordRadius 360) = [] := by
      unfold queryBall
      simp only [List.length_singleton, List.range_one]
      rw [List.filter_cons]
      simp [hd, hchord]
    unfold rangeSearch
    rw [hq]
    simp only [hr, oneTable, List.map_cons, List.map_nil, hball, timeStep, TArg.isNone, and_self, if_true, footprintStep,
      QArg.isScalar, List.headD_cons]
  · refine ⟨0, 0, rfl, rfl, ?_, by simp, by simp, by simp [oneTable]⟩
    have := arccos_le_pi (sin (0 * (π / 180)) * sin (0 * (π / 180)) +
      cos (0 * (π / 180)) * cos (0 * (π / 180)) * cos (90 * (π / 180) - 0 * (π / 180)))
    unfold sep
    simp only
    linarith

/-- C37, is_observed, fails for a scalar right ascension with a declination array of one element: the answer
is always True, here for a point on the other side of the sky. -/
theorem C37_is_observed_counterexample :
    oneTable.isObserved (.scalar 180) (.arr [some 0]) (some 1) .none .none = .ok (.one true) ∧
    ¬ ∃ i, Match oneTable (180, 0) 1 none none i := by
  have hpi := pi_pos
  constructor
  · unfold isObserved
    have hq : queryPoints (.scalar 180) (.arr [some 0]) = .ok [(180, 0)] := by
      simp [queryPoints, QArg.values]
    have hr : ∀ t : ObsTable, (some (1 : ℝ) <|> t.radius) = some 1 := fun _ => rfl
    have : ∃ l, oneTable.rangeSearch (.scalar 180) (.arr [some 0]) (some 1) .none .none = .ok (.many [l]) := by
      unfold rangeSearch
      rw [hq]
      simp only [hr, List.map_cons, List.map_nil, timeStep, TArg.isNone, and_self, if_true, footprintStep, oneTable,
        QArg.isScalar, and_false, Bool.false_eq_true, if_false]
      exact ⟨_, rfl⟩
    obtain ⟨l, hl⟩ := this
    rw [hl]
    simp [QArg.isScalar]
  · rintro ⟨i, ra, dec, h1, h2, h3, -⟩
    have hi : i = 0 := by
      cases i with
      | zero => rfl
      | succ i => simp [num, cell, oneTable, oneRow, Dict.get?] at h1
    subst hi
    have e1 : ra = 0 := by simp [num, cell, oneTable, oneRow, Dict.get?] at h1; exact h1.symm
    have e2 : dec = 0 := by simp [num, cell, oneTable, oneRow, Dict.get?] at h2; exact h2.symm
    subst e1 e2
    unfold sep at h3
    have : (180 : ℝ) * (π / 180) = π := by ring
    simp [this] at h3
    linarith

end LCL.RangeSearchProps
