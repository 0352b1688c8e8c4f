import Verif.Props.PassbandGroup

/-!
# Counterexamples to C29 and C30, and property C64 (the `filters` argument)
-/

namespace LCL.PassbandGroupProps
open LCL LCL.PassbandSpec LCL.PassbandLemmas LCL.PassbandProps

/-! ## Two-row passbands -/

/-- The passband built from transmission 1 at two wavelengths, unprocessed. -/
def twoRow (survey filter : Name) (a b : ℚ) : Passband ℚ :=
  { fullName := survey ++ '_' :: filter, filterName := filter, loaded := [(a, 1), (b, 1)],
    table := [(a, 1 / a / ((b - a) * (1 / b + 1 / a) / 2)), (b, 1 / b / ((b - a) * (1 / b + 1 / a) / 2))],
    waves := [a, b], deltaWave := none }

theorem twoRow_init (survey filter : Name) (a b : ℚ) (ha : 0 < a) (hab : a < b) :
    Passband.init [(a, 1), (b, 1)] survey filter none none "A" = .ok (twoRow survey filter a b) := by
  have hb : 0 < b := ha.trans hab
  have hden : (b - a) * (1 / b + 1 / a) / 2 ≠ 0 := by
    have h1 : 0 < b - a := by linarith
    positivity
  unfold Passband.init
  have hv : Passband.validate [(a, (1 : ℚ)), (b, 1)] = .ok [(a, 1), (b, 1)] := by
    unfold Passband.validate
    simp only [List.map_cons, List.map_nil, npDiff, List.any_cons, List.any_nil, Bool.or_false, decide_eq_true_eq]
    rw [if_neg (by linarith), if_neg (by intro h; linarith)]
  have hu : Passband.toAngstrom [(a, (1 : ℚ)), (b, 1)] "A" = .ok [(a, 1), (b, 1)] := by
    unfold Passband.toAngstrom
    rw [if_neg (by decide), if_pos rfl]
  rw [hv]
  simp only
  rw [hu]
  have hp : Passband.process [(a, (1 : ℚ)), (b, 1)] none none = .ok (twoRow survey filter a b).table := by
    unfold Passband.process
    simp only [Passband.interpolate, Passband.trim, Passband.normalize]
    rw [if_neg (by simp)]
    simp only [List.map_cons, List.map_nil, trapezoid, trapCells, List.sum_cons, List.sum_nil, add_zero]
    rw [if_neg hden]
    simp [twoRow]
  simp only
  rw [hp]
  simp [twoRow]

theorem twoRow_built (survey filter : Name) (a b : ℚ) (ha : 0 < a) (hab : a < b) :
    ∃ t survey' f delta q units, Passband.init t survey' f delta q units = .ok (twoRow survey filter a b) :=
  ⟨_, _, _, _, _, _, twoRow_init survey filter a b ha hab⟩

/-! ## C29 -/

/-- C29 is false for distinct wavelengths closer than the threshold: in the group of a band on
`{1, 2}` and a band on `{2.000001, 3}` the second band is given the flux at 3 twice. -/
theorem C29_close_waves_counterexample :
    ∃ g : PassbandGroup ℚ, Reachable g ∧ ∃ n pb, g.passbands.get? n = some pb ∧
      g.bandflux [onGrid (fun w => w) g.waves] n = pb.bandflux [[3, 3]] ∧
      g.bandflux [onGrid (fun w => w) g.waves] n ≠ pb.bandflux [onGrid (fun w => w) pb.waves] := by
  let A := twoRow ['s'] ['a'] 1 2
  let B := twoRow ['s'] ['b'] (2 + 1 / 10 ^ 6) 3
  let pbs : Dict Name (Passband ℚ) := [(['s', '_', 'a'], A), (['s', '_', 'b'], B)]
  have hgrid : PassbandGroup.gridOf (1 / 10 ^ 5) pbs = [1, 2, 3] := by
    unfold PassbandGroup.gridOf
    have : ((Dict.values pbs).map (·.waves)).flatten = [1, 2, 2 + 1 / 10 ^ 6, 3] := rfl
    rw [this, List.mergeSort_of_pairwise (by norm_num)]
    norm_num [keepGaps, keepAfter]
  have hidx : PassbandGroup.indexAll ([1, 2, 3] : List ℚ) pbs =
      .ok [(['s', '_', 'a'], .slice 0 2), (['s', '_', 'b'], .positions [2, 2])] := by
    have h1 : PassbandGroup.indexOf ([1, 2, 3] : List ℚ) A.waves = .ok (.slice 0 2) := by
      show PassbandGroup.indexOf ([1, 2, 3] : List ℚ) [1, 2] = _
      norm_num [PassbandGroup.indexOf, searchLeft, List.takeWhile]
    have h2 : PassbandGroup.indexOf ([1, 2, 3] : List ℚ) B.waves = .ok (.positions [2, 2]) := by
      show PassbandGroup.indexOf ([1, 2, 3] : List ℚ) [2 + 1 / 10 ^ 6, 3] = _
      norm_num [PassbandGroup.indexOf, searchLeft, List.takeWhile]
    show PassbandGroup.indexAll _ [(['s', '_', 'a'], A), (['s', '_', 'b'], B)] = _
    simp only [PassbandGroup.indexAll, h1, h2]
  let g : PassbandGroup ℚ := ⟨pbs, pbs.foldl PassbandGroup.addFilter [], [1, 2, 3],
    [(['s', '_', 'a'], .slice 0 2), (['s', '_', 'b'], .positions [2, 2])]⟩
  have hinit : PassbandGroup.init [A, B] none = .ok g := by
    have hst : PassbandGroup.store [A, B] = pbs := rfl
    have hup : PassbandGroup.update ⟨pbs, [], [], []⟩ = (g, none) := by
      unfold PassbandGroup.update
      simp only [hgrid, hidx]
      rfl
    unfold PassbandGroup.init
    simp only [List.cons_ne_nil, if_false, hst, PassbandGroup.prune, ne_eq, not_true_eq_false, hup]
  have hr : Reachable g := by
    refine .init ?_ hinit
    intro pb hpb
    simp only [List.mem_cons, List.not_mem_nil, or_false] at hpb
    rcases hpb with rfl | rfl
    · exact twoRow_built _ _ _ _ (by norm_num) (by norm_num)
    · exact twoRow_built _ _ _ _ (by norm_num) (by norm_num)
  have hb : g.bandflux [onGrid (fun w => w) g.waves] ['s', '_', 'b'] = B.bandflux [[3, 3]] := rfl
  refine ⟨g, hr, ['s', '_', 'b'], B, rfl, hb, ?_⟩
  rw [hb]
  intro h
  have e : B.bandflux [onGrid (fun w => w) B.waves] = B.bandflux [[2 + 1 / 10 ^ 6, 3]] := rfl
  rw [e] at h
  simp only [B, twoRow, Passband.bandflux, List.map_cons, List.map_nil] at h
  rw [if_neg (List.cons_ne_nil _ _), if_neg (List.cons_ne_nil _ _)] at h
  norm_num [Passband.integrate, trapezoid, trapCells] at h

/-- C29, worse: when a band's last wavelengths are merged away, its bandflux raises IndexError. -/
theorem C29_index_error_counterexample :
    ∃ g : PassbandGroup ℚ, Reachable g ∧ ∃ n pb, g.passbands.get? n = some pb ∧
      ∀ f : ℚ → ℚ, g.bandflux [onGrid f g.waves] n = .error .indexError := by
  let A := twoRow ['s'] ['a'] 1 3
  let B := twoRow ['s'] ['b'] (3 + 1 / 10 ^ 6) (3 + 2 / 10 ^ 6)
  let pbs : Dict Name (Passband ℚ) := [(['s', '_', 'a'], A), (['s', '_', 'b'], B)]
  have hgrid : PassbandGroup.gridOf (1 / 10 ^ 5) pbs = [1, 3] := by
    unfold PassbandGroup.gridOf
    have : ((Dict.values pbs).map (·.waves)).flatten = [1, 3, 3 + 1 / 10 ^ 6, 3 + 2 / 10 ^ 6] := rfl
    rw [this, List.mergeSort_of_pairwise (by norm_num)]
    norm_num [keepGaps, keepAfter]
  have hidx : PassbandGroup.indexAll ([1, 3] : List ℚ) pbs =
      .ok [(['s', '_', 'a'], .slice 0 2), (['s', '_', 'b'], .positions [2, 2])] := by
    have h1 : PassbandGroup.indexOf ([1, 3] : List ℚ) A.waves = .ok (.slice 0 2) := by
      show PassbandGroup.indexOf ([1, 3] : List ℚ) [1, 3] = _
      norm_num [PassbandGroup.indexOf, searchLeft, List.takeWhile]
    have h2 : PassbandGroup.indexOf ([1, 3] : List ℚ) B.waves = .ok (.positions [2, 2]) := by
      show PassbandGroup.indexOf ([1, 3] : List ℚ) [3 + 1 / 10 ^ 6, 3 + 2 / 10 ^ 6] = _
      norm_num [PassbandGroup.indexOf, searchLeft, List.takeWhile]
      intro h
      exact absurd h (List.cons_ne_nil _ _)
    show PassbandGroup.indexAll _ [(['s', '_', 'a'], A), (['s', '_', 'b'], B)] = _
    simp only [PassbandGroup.indexAll, h1, h2]
  let g : PassbandGroup ℚ := ⟨pbs, pbs.foldl PassbandGroup.addFilter [], [1, 3],
    [(['s', '_', 'a'], .slice 0 2), (['s', '_', 'b'], .positions [2, 2])]⟩
  have hinit : PassbandGroup.init [A, B] none = .ok g := by
    have hst : PassbandGroup.store [A, B] = pbs := rfl
    have hup : PassbandGroup.update ⟨pbs, [], [], []⟩ = (g, none) := by
      unfold PassbandGroup.update
      simp only [hgrid, hidx]
      rfl
    unfold PassbandGroup.init
    simp only [List.cons_ne_nil, if_false, hst, PassbandGroup.prune, ne_eq, not_true_eq_false, hup]
  have hr : Reachable g := by
    refine .init ?_ hinit
    intro pb hpb
    simp only [List.mem_cons, List.not_mem_nil, or_false] at hpb
    rcases hpb with rfl | rfl
    · exact twoRow_built _ _ _ _ (by norm_num) (by norm_num)
    · exact twoRow_built _ _ _ _ (by norm_num) (by norm_num)
  exact ⟨g, hr, ['s', '_', 'b'], B, rfl, fun f => rfl⟩

/-! ## C30 -/

/-- C30 is false for ambiguous filter names: in a group of two surveys' bands of one filter, looking
the filter up raises KeyError while the bandflux under that filter name is silently that of the
first survey's band. Here with full agreement of the hypotheses of `C29_shared_grid_partial`. -/
theorem C30_ambiguous_counterexample :
    ∃ g : PassbandGroup ℚ, Reachable g ∧ Separated g ∧ ∃ key, g.getItem key = .error .keyError ∧
      ∀ m, g.bandflux m key = g.bandflux m ['s', '_', 'r'] := by
  let A := twoRow ['s'] ['r'] 1 2
  let B := twoRow ['t'] ['r'] 1 2
  let pbs : Dict Name (Passband ℚ) := [(['s', '_', 'r'], A), (['t', '_', 'r'], B)]
  have hgrid : PassbandGroup.gridOf (1 / 10 ^ 5) pbs = [1, 2] := by
    unfold PassbandGroup.gridOf
    have : ((Dict.values pbs).map (·.waves)).flatten = [1, 2, 1, 2] := rfl
    rw [this]
    have hs : ([1, 2, 1, 2] : List ℚ).mergeSort (fun a b => decide (a ≤ b)) = [1, 1, 2, 2] := by
      apply List.Perm.eq_of_pairwise (le := fun a b : ℚ => a ≤ b)
      · intro a b _ _ h1 h2; exact le_antisymm h1 h2
      · exact (sort_spec _).1
      · norm_num
      · refine (List.mergeSort_perm _ _).trans ?_
        exact List.Perm.cons _ (List.Perm.swap _ _ _)
    rw [hs]
    norm_num [keepGaps, keepAfter]
  have hidx : PassbandGroup.indexAll ([1, 2] : List ℚ) pbs =
      .ok [(['s', '_', 'r'], .slice 0 2), (['t', '_', 'r'], .slice 0 2)] := by
    have h1 : PassbandGroup.indexOf ([1, 2] : List ℚ) [1, 2] = .ok (.slice 0 2) := by
      norm_num [PassbandGroup.indexOf, searchLeft, List.takeWhile]
    show PassbandGroup.indexAll _ [(['s', '_', 'r'], A), (['t', '_', 'r'], B)] = _
    have hA : A.waves = [1, 2] := rfl
    have hB : B.waves = [1, 2] := rfl
    simp only [PassbandGroup.indexAll, hA, hB, h1]
  let g : PassbandGroup ℚ := ⟨pbs, pbs.foldl PassbandGroup.addFilter [], [1, 2],
    [(['s', '_', 'r'], .slice 0 2), (['t', '_', 'r'], .slice 0 2)]⟩
  have hinit : PassbandGroup.init [A, B] none = .ok g := by
    have hst : PassbandGroup.store [A, B] = pbs := rfl
    have hup : PassbandGroup.update ⟨pbs, [], [], []⟩ = (g, none) := by
      unfold PassbandGroup.update
      simp only [hgrid, hidx]
      rfl
    unfold PassbandGroup.init
    simp only [List.cons_ne_nil, if_false, hst, PassbandGroup.prune, ne_eq, not_true_eq_false, hup]
  have hr : Reachable g := by
    refine .init ?_ hinit
    intro pb hpb
    simp only [List.mem_cons, List.not_mem_nil, or_false] at hpb
    rcases hpb with rfl | rfl
    · exact twoRow_built _ _ _ _ (by norm_num) (by norm_num)
    · exact twoRow_built _ _ _ _ (by norm_num) (by norm_num)
  refine ⟨g, hr, ?_, ['r'], rfl, fun m => rfl⟩
  have hw : ∀ pb ∈ g.passbands.values, pb.waves = [1, 2] := by
    intro pb hpb
    have : pb ∈ [A, B] := hpb
    simp only [List.mem_cons, List.not_mem_nil, or_false] at this
    rcases this with rfl | rfl <;> rfl
  intro pb h1 pb' h2 a ha b hb hab
  rw [hw pb h1] at ha
  rw [hw pb' h2] at hb
  simp only [List.mem_cons, List.not_mem_nil, or_false] at ha hb
  rcases ha with rfl | rfl <;> rcases hb with rfl | rfl <;> first | (norm_num at hab; done) | norm_num

/-! ## C64 -/
variable {K : Type} [Field K] [LinearOrder K]

/-- A band is asked for by its full name or its filter name. -/
def Requested (fs : List Name) (n : Name) (pb : Passband K) : Prop := n ∈ fs ∨ pb.filterName ∈ fs

/-- The loop crosses `f` off the list of filters to find because of the band `p`. -/
def CrossedBy (fs : List Name) (f : Name) (p : Name × Passband K) : Prop :=
  (p.1 ∈ fs ∧ f = p.1) ∨ (p.1 ∉ fs ∧ p.2.filterName ∈ fs ∧ f = p.2.filterName)

open Classical in
theorem prune_spec (fs : List Name) : ∀ (ps : List (Name × Passband K)) (st : Dict Name (Passband K) × List Name),
    (ps.map (·.1)).Nodup → st.1.keys.Nodup → (∀ p ∈ ps, st.1.get? p.1 = some p.2) →
    (∀ n, Dict.get? (ps.foldl (PassbandGroup.pruneStep fs) st).1 n =
      if ∃ pb, (n, pb) ∈ ps ∧ ¬ Requested fs n pb then none else st.1.get? n) ∧
    ∀ f, f ∈ (ps.foldl (PassbandGroup.pruneStep fs) st).2 ↔ f ∈ st.2 ∧ ¬ ∃ p ∈ ps, CrossedBy fs f p := by
  intro ps
  induction ps with
  | nil => intro st _ _ _; simp
  | cons p ps ih =>
    intro st hnd hst hget
    simp only [List.map_cons, List.nodup_cons] at hnd
    rw [List.foldl_cons]
    unfold PassbandGroup.pruneStep at ih ⊢
    by_cases h1 : p.1 ∈ fs
    · rw [if_pos h1]
      obtain ⟨i1, i2⟩ := ih (st.1, st.2.filter (· ≠ p.1)) hnd.2 hst (fun q hq => hget q (List.mem_cons_of_mem _ hq))
      refine ⟨?_, ?_⟩
      · intro n
        rw [i1 n]
        have : (∃ pb, (n, pb) ∈ p :: ps ∧ ¬ Requested fs n pb) ↔ ∃ pb, (n, pb) ∈ ps ∧ ¬ Requested fs n pb := by
          constructor
          · rintro ⟨pb, hm, hq⟩
            rcases List.mem_cons.1 hm with h | h
            · exact absurd (Or.inl (by rw [← h] at h1; exact h1)) hq
            · exact ⟨pb, h, hq⟩
          · rintro ⟨pb, hm, hq⟩; exact ⟨pb, List.mem_cons_of_mem _ hm, hq⟩
        simp only [this]
      · intro f
        rw [i2 f]
        simp only [List.mem_filter, decide_eq_true_eq, List.mem_cons, exists_eq_or_imp, not_or]
        have : CrossedBy fs f p ↔ f = p.1 := by
          unfold CrossedBy
          constructor
          · rintro (h | h)
            · exact h.2
            · exact absurd h1 h.1
          · intro h; exact Or.inl ⟨h1, h⟩
        rw [this]
        simp only [ne_eq, decide_not, Bool.not_eq_true', decide_eq_false_iff_not]
        tauto
    · rw [if_neg h1]
      by_cases h2 : p.2.filterName ∈ fs
      · rw [if_pos h2]
        obtain ⟨i1, i2⟩ := ih (st.1, st.2.filter (· ≠ p.2.filterName)) hnd.2 hst (fun q hq => hget q (List.mem_cons_of_mem _ hq))
        refine ⟨?_, ?_⟩
        · intro n
          rw [i1 n]
          have : (∃ pb, (n, pb) ∈ p :: ps ∧ ¬ Requested fs n pb) ↔ ∃ pb, (n, pb) ∈ ps ∧ ¬ Requested fs n pb := by
            constructor
            · rintro ⟨pb, hm, hq⟩
              rcases List.mem_cons.1 hm with h | h
              · exact absurd (Or.inr (by rw [← h] at h2; exact h2)) hq
              · exact ⟨pb, h, hq⟩
            · rintro ⟨pb, hm, hq⟩; exact ⟨pb, List.mem_cons_of_mem _ hm, hq⟩
          simp only [this]
        · intro f
          rw [i2 f]
          simp only [List.mem_filter, decide_eq_true_eq, List.mem_cons, exists_eq_or_imp, not_or]
          have : CrossedBy fs f p ↔ f = p.2.filterName := by
            unfold CrossedBy
            constructor
            · rintro (h | h)
              · exact absurd h.1 h1
              · exact h.2.2
            · intro h; exact Or.inr ⟨h1, h2, h⟩
          rw [this]
          simp only [ne_eq, decide_not, Bool.not_eq_true', decide_eq_false_iff_not]
          tauto
      · rw [if_neg h2]
        have hnm : ∀ q ∈ ps, q.1 ≠ p.1 := by
          intro q hq e
          exact hnd.1 (e ▸ List.mem_map.2 ⟨q, hq, rfl⟩)
        obtain ⟨i1, i2⟩ := ih (st.1.erase p.1, st.2) hnd.2 (Dict.nodup_erase hst _) (by
          intro q hq
          rw [Dict.get?_erase_ne _ (fun e => hnm q hq e.symm)]
          exact hget q (List.mem_cons_of_mem _ hq))
        refine ⟨?_, ?_⟩
        · intro n
          rw [i1 n]
          by_cases hn : n = p.1
          · subst hn
            rw [if_pos (⟨p.2, by simp, by unfold Requested; push Not; exact ⟨h1, h2⟩⟩ : ∃ pb, (p.1, pb) ∈ p :: ps ∧ ¬ Requested fs p.1 pb),
              Dict.get?_erase_self hst, ite_self]
          · rw [Dict.get?_erase_ne _ (fun e => hn e.symm)]
            have : (∃ pb, (n, pb) ∈ p :: ps ∧ ¬ Requested fs n pb) ↔ ∃ pb, (n, pb) ∈ ps ∧ ¬ Requested fs n pb := by
              constructor
              · rintro ⟨pb, hm, hq⟩
                rcases List.mem_cons.1 hm with h | h
                · exact absurd (by rw [← h]) hn
                · exact ⟨pb, h, hq⟩
              · rintro ⟨pb, hm, hq⟩; exact ⟨pb, List.mem_cons_of_mem _ hm, hq⟩
            simp only [this]
        · intro f
          rw [i2 f]
          simp only [List.mem_cons, exists_eq_or_imp, not_or]
          have : ¬ CrossedBy fs f p := by
            unfold CrossedBy
            rintro (h | h)
            · exact h1 h.1
            · exact h2 h.2.1
          simp only [this, not_false_eq_true, true_and]

theorem store_get (given : List (Passband K)) (n : Name) :
    Dict.get? (PassbandGroup.store given) n = given.reverse.find? (fun pb => decide (pb.fullName = n)) := by
  unfold PassbandGroup.store
  have key : ∀ (l : List (Passband K)) (d : Dict Name (Passband K)),
      Dict.get? (l.foldl (fun (d : Dict Name (Passband K)) pb => Dict.set d pb.fullName pb) d) n =
        (l.reverse.find? (fun pb => decide (pb.fullName = n))).or (d.get? n) := by
    intro l
    induction l with
    | nil => intro d; simp
    | cons p l ih =>
      intro d
      rw [List.foldl_cons, ih, List.reverse_cons, List.find?_append, Dict.get?_set]
      cases List.find? (fun pb => decide (pb.fullName = n)) l.reverse with
      | some q => simp
      | none => by_cases h : p.fullName = n <;> simp [h]
  rw [key given []]
  simp

theorem store_nodup (given : List (Passband K)) : (PassbandGroup.store given).keys.Nodup := by
  unfold PassbandGroup.store
  have key : ∀ (l : List (Passband K)) (d : Dict Name (Passband K)), d.keys.Nodup →
      (l.foldl (fun (d : Dict Name (Passband K)) pb => Dict.set d pb.fullName pb) d).keys.Nodup := by
    intro l
    induction l with
    | nil => intro d h; exact h
    | cons p l ih => intro d h; exact ih _ (Dict.nodup_set h _ _)
  exact key given [] (by simp)

/-- C64, where it holds. A group built with a list of filters holds, under each name, exactly the last
given passband of that full name, and only if it was asked for by full name or by filter name; every
filter asked for names a member; and a filter that names no given band makes the construction raise
ValueError. Without a list, every given band is kept. Missing: the construction may also raise
although every filter names a band, see `C64_both_names_counterexample`. -/
theorem C64_filters_partial (given : List (Passband K)) (fs : List Name) :
    (∀ g, PassbandGroup.init given (some fs) = .ok g →
      (∀ n pb, g.passbands.get? n = some pb ↔
        given.reverse.find? (fun pb => decide (pb.fullName = n)) = some pb ∧ Requested fs n pb) ∧
      ∀ f ∈ fs, ∃ n pb, g.passbands.get? n = some pb ∧ (f = n ∨ f = pb.filterName)) ∧
    ((∃ f ∈ fs, ∀ pb ∈ given, pb.fullName ≠ f ∧ pb.filterName ≠ f) →
      PassbandGroup.init given (some fs) = .error .valueError) ∧
    (∀ g, PassbandGroup.init given none = .ok g → ∀ n,
      g.passbands.get? n = given.reverse.find? (fun pb => decide (pb.fullName = n))) := by
  have hupd : ∀ (g g' : PassbandGroup K), g.update = (g', none) → g'.passbands = g.passbands := by
    intro g g' h
    unfold PassbandGroup.update at h
    simp only at h
    split at h
    · simp only [Prod.mk.injEq, and_true] at h; subst h; rfl
    · simp at h
  obtain ⟨s1, s2⟩ := prune_spec fs (PassbandGroup.store given) (PassbandGroup.store given, fs) (store_nodup given)
    (store_nodup given) (fun p hp => Dict.get?_of_mem (store_nodup given) hp)
  change ∀ n, Dict.get? (PassbandGroup.prune (PassbandGroup.store given) (some fs)).1 n = _ at s1
  change ∀ f, f ∈ (PassbandGroup.prune (PassbandGroup.store given) (some fs)).2 ↔ _ at s2
  refine ⟨?_, ?_, ?_⟩
  · intro g h
    unfold PassbandGroup.init at h
    split at h
    · cases h
    · dsimp only at h
      split at h
      · cases h
      · rename_i hrem
        split at h
        · rename_i g' hu
          cases h
          have hp := hupd _ _ hu
          simp only at hp
          have hget : ∀ n pb, g.passbands.get? n = some pb ↔
              given.reverse.find? (fun pb => decide (pb.fullName = n)) = some pb ∧ Requested fs n pb := by
            intro n pb
            rw [hp, s1 n, ← store_get]
            constructor
            · intro h
              split at h
              · cases h
              · rename_i hc
                refine ⟨h, ?_⟩
                by_contra hq
                exact hc ⟨pb, Dict.mem_of_get? h, hq⟩
            · rintro ⟨h, hq⟩
              rw [if_neg]
              · exact h
              · rintro ⟨pb', hm, hn⟩
                have := Dict.get?_of_mem (store_nodup given) hm
                rw [h] at this; cases this
                exact hn hq
          refine ⟨hget, ?_⟩
          intro f hf
          have hnot : f ∉ (PassbandGroup.prune (PassbandGroup.store given) (some fs)).2 := by
            rw [not_ne_iff.1 hrem]; simp
          rw [s2 f] at hnot
          push Not at hnot
          obtain ⟨p, hpm, hcr⟩ := hnot hf
          refine ⟨p.1, p.2, ?_, ?_⟩
          · rw [hget, ← store_get]
            refine ⟨Dict.get?_of_mem (store_nodup given) hpm, ?_⟩
            rcases hcr with h | h
            · exact Or.inl h.1
            · exact Or.inr h.2.1
          · rcases hcr with h | h
            · exact Or.inl h.2
            · exact Or.inr h.2.2
        · cases h
  · rintro ⟨f, hf, hno⟩
    unfold PassbandGroup.init
    split
    · rfl
    · dsimp only
      rw [if_pos]
      intro h0
      have : f ∈ (PassbandGroup.prune (PassbandGroup.store given) (some fs)).2 := by
        rw [s2 f]
        refine ⟨hf, ?_⟩
        rintro ⟨p, hp, hcr⟩
        have h1 := Dict.get?_of_mem (store_nodup given) hp
        rw [store_get] at h1
        have h2 := List.find?_some h1
        have h3 := List.mem_of_find?_eq_some h1
        rw [List.mem_reverse] at h3
        rcases hcr with h | h
        · exact (hno p.2 h3).1 (by simpa [h.2] using h2)
        · exact (hno p.2 h3).2 h.2.2.symm
      rw [h0] at this
      simp at this
  · intro g h n
    unfold PassbandGroup.init at h
    split at h
    · cases h
    · dsimp only at h
      split at h
      · cases h
      · split at h
        · rename_i g' hu
          cases h
          rw [hupd _ _ hu]
          exact store_get given n
        · cases h

/-- C64 is false in one direction: asking for a band by its full name and by its filter name raises
ValueError ("not found") although both name a given band. -/
theorem C64_both_names_counterexample :
    PassbandGroup.init [twoRow ['s'] ['r'] 1 2] (some [['s', '_', 'r'], ['r']]) = .error .valueError ∧
    ∀ f ∈ [['s', '_', 'r'], ['r']], ∃ pb ∈ [twoRow ['s'] ['r'] 1 2], pb.fullName = f ∨ pb.filterName = f := by
  constructor
  · rfl
  · intro f hf
    simp only [List.mem_cons, List.not_mem_nil, or_false] at hf
    rcases hf with rfl | rfl
    · exact ⟨twoRow ['s'] ['r'] 1 2, List.mem_singleton_self _, Or.inl rfl⟩
    · exact ⟨twoRow ['s'] ['r'] 1 2, List.mem_singleton_self _, Or.inr rfl⟩

end LCL.PassbandGroupProps
