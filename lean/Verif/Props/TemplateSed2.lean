import Verif.Props.TemplateSed

/-!
# C50: a concrete model, and the leak below the significance threshold

Band `a` lets the wavelengths 1 and 2 through; band `b` lets 3 through and, with the small transmission `e`, also 2.
-/

namespace LCL.TemplateSedProps
open LCL LCL.TemplateSedSpec LCL.TemplateSedLemmas LCL.PassbandGroupProps LCL.TemplateLemmas LCL.PassbandLemmas LCL.PassbandProps

/-- The unprocessed band with two rows. -/
noncomputable def pairBand (filter : Name) (a ta b tb : ℝ) : Passband ℝ :=
  { fullName := ['s'] ++ '_' :: filter, filterName := filter, loaded := [(a, ta), (b, tb)],
    table := [(a, ta / a / ((b - a) * (tb / b + ta / a) / 2)), (b, tb / b / ((b - a) * (tb / b + ta / a) / 2))],
    waves := [a, b], deltaWave := none }

theorem pairBand_init (filter : Name) (a ta b tb : ℝ) (hab : a < b) (hden : (b - a) * (tb / b + ta / a) / 2 ≠ 0) :
    Passband.init [(a, ta), (b, tb)] ['s'] filter none none "A" = .ok (pairBand filter a ta b tb) := by
  unfold Passband.init
  have hv : Passband.validate [(a, ta), (b, tb)] = .ok [(a, ta), (b, tb)] := by
    unfold Passband.validate
    simp only [List.map_cons, List.map_nil, npDiff, List.any_cons, List.any_nil, Bool.or_false, decide_eq_true_eq]
    rw [if_neg (by linarith), if_neg (by intro h; linarith)]
  have hu : Passband.toAngstrom [(a, ta), (b, tb)] "A" = .ok [(a, ta), (b, tb)] := by
    unfold Passband.toAngstrom
    rw [if_neg (by decide), if_pos rfl]
  rw [hv]
  dsimp only
  rw [hu]
  have hp : Passband.process [(a, ta), (b, tb)] none none = .ok (pairBand filter a ta b tb).table := by
    unfold Passband.process
    simp only [Passband.interpolate, Passband.trim, Passband.normalize]
    rw [if_neg (by simp)]
    simp only [List.map_cons, List.map_nil, trapezoid, trapCells, List.sum_cons, List.sum_nil, add_zero]
    rw [if_neg hden]
    simp [pairBand]
  dsimp only
  rw [hp]
  simp [pairBand]

noncomputable def bandA : Passband ℝ := pairBand ['a'] 1 1 2 1
noncomputable def bandB (e : ℝ) : Passband ℝ := pairBand ['b'] 2 e 3 1

noncomputable def abDict (e : ℝ) : Dict Name (Passband ℝ) := [(['s', '_', 'a'], bandA), (['s', '_', 'b'], bandB e)]

/-- The group of the two bands. -/
noncomputable def abGroup (e : ℝ) : PassbandGroup ℝ :=
  ⟨abDict e, (abDict e).foldl PassbandGroup.addFilter [], [1, 2, 3],
    [(['s', '_', 'a'], .slice 0 2), (['s', '_', 'b'], .slice 1 3)]⟩

theorem ab_reachable (e : ℝ) (he : 0 ≤ e) : Reachable (abGroup e) := by
  have hgrid : PassbandGroup.gridOf (1 / 10 ^ 5) (abDict e) = [1, 2, 3] := by
    unfold PassbandGroup.gridOf
    have : ((Dict.values (abDict e)).map (·.waves)).flatten = [1, 2, 2, 3] := rfl
    rw [this, List.mergeSort_of_pairwise (by norm_num)]
    norm_num [keepGaps, keepAfter]
  have hidx : PassbandGroup.indexAll ([1, 2, 3] : List ℝ) (abDict e) =
      .ok [(['s', '_', 'a'], .slice 0 2), (['s', '_', 'b'], .slice 1 3)] := by
    have h1 : PassbandGroup.indexOf ([1, 2, 3] : List ℝ) bandA.waves = .ok (.slice 0 2) := by
      show PassbandGroup.indexOf ([1, 2, 3] : List ℝ) [1, 2] = _
      norm_num [PassbandGroup.indexOf, searchLeft, List.takeWhile]
    have h2 : PassbandGroup.indexOf ([1, 2, 3] : List ℝ) (bandB e).waves = .ok (.slice 1 3) := by
      show PassbandGroup.indexOf ([1, 2, 3] : List ℝ) [2, 3] = _
      norm_num [PassbandGroup.indexOf, searchLeft, List.takeWhile]
    show PassbandGroup.indexAll _ [(['s', '_', 'a'], bandA), (['s', '_', 'b'], bandB e)] = _
    simp only [PassbandGroup.indexAll, h1, h2]
  have hst : PassbandGroup.store [bandA, bandB e] = abDict e := rfl
  have hup : PassbandGroup.update ⟨abDict e, [], [], []⟩ = (abGroup e, none) := by
    unfold PassbandGroup.update
    simp only [hgrid, hidx]
    rfl
  have hinit : PassbandGroup.init [bandA, bandB e] none = .ok (abGroup e) := by
    unfold PassbandGroup.init
    simp only [List.cons_ne_nil, if_false, hst, PassbandGroup.prune, ne_eq, not_true_eq_false, hup]
  refine .init ?_ hinit
  intro pb hpb
  simp only [List.mem_cons, List.not_mem_nil, or_false] at hpb
  rcases hpb with rfl | rfl
  · exact ⟨_, _, _, _, _, _, pairBand_init ['a'] 1 1 2 1 (by norm_num) (by norm_num)⟩
  · refine ⟨_, _, _, _, _, _, pairBand_init ['b'] 2 e 3 1 (by norm_num) ?_⟩
    have : 0 < (3 - 2 : ℝ) * (1 / 3 + e / 2) / 2 := by norm_num; positivity
    exact this.ne'

theorem ab_separated (e : ℝ) : Separated (abGroup e) := by
  intro pb hpb pb' hpb' x hx y hy hxy
  have hv : ∀ q : Passband ℝ, q ∈ (abGroup e).passbands.values → ∀ z ∈ q.waves, z = 1 ∨ z = 2 ∨ z = 3 := by
    intro q hq z hz
    have hq' : q = bandA ∨ q = bandB e := by simpa [abGroup, abDict, Dict.values] using hq
    rcases hq' with rfl | rfl
    · have : z = 1 ∨ z = 2 := by simpa [bandA, pairBand] using hz
      tauto
    · have : z = 2 ∨ z = 3 := by simpa [bandB, pairBand] using hz
      tauto
  rcases hv pb hpb x hx with rfl | rfl | rfl <;> rcases hv pb' hpb' y hy with rfl | rfl | rfl <;> revert hxy <;> norm_num

theorem ab_getA (e : ℝ) : (abGroup e).getItem ['a'] = .ok bandA := rfl
theorem ab_getB (e : ℝ) : (abGroup e).getItem ['b'] = .ok (bandB e) := rfl

theorem bandA_rows {w T : ℝ} (h : (w, T) ∈ bandA.table) : w = 1 ∨ w = 2 := by
  rcases List.mem_cons.1 h with h | h
  · injection h with h; exact Or.inl h
  · rcases List.mem_cons.1 h with h | h
    · injection h with h; exact Or.inr h
    · cases h

theorem ab_sigA (e w : ℝ) : Significant (abGroup e) ['a'] w ↔ w = 1 ∨ w = 2 := by
  constructor
  · rintro ⟨pb, T, h1, h2, _⟩
    rw [ab_getA] at h1
    injection h1 with h1
    subst h1
    exact bandA_rows h2
  · rintro (rfl | rfl)
    · exact ⟨bandA, _, rfl, List.mem_cons_self .., by norm_num⟩
    · exact ⟨bandA, _, rfl, List.mem_cons_of_mem _ (List.mem_cons_self ..), by norm_num⟩

theorem ab_sigB (e w : ℝ) (he : 0 ≤ e) (he' : e ≤ 1 / 10 ^ 6) : Significant (abGroup e) ['b'] w ↔ w = 3 := by
  have hD : 0 < (3 - 2 : ℝ) * (1 / 3 + e / 2) / 2 := by norm_num; positivity
  constructor
  · rintro ⟨pb, T, h1, h2, h3⟩
    rw [ab_getB] at h1
    injection h1 with h1
    subst h1
    rcases List.mem_cons.1 h2 with h | h
    · exfalso
      injection h with _ hT
      subst hT
      rw [lt_div_iff₀ hD] at h3
      norm_num at h3 he'
      linarith
    · rcases List.mem_cons.1 h with h | h
      · injection h
      · cases h
  · rintro rfl
    refine ⟨bandB e, _, rfl, List.mem_cons_of_mem _ (List.mem_cons_self ..), ?_⟩
    rw [lt_div_iff₀ hD]
    norm_num at he' ⊢
    linarith

/-- The curves: 5 in `a`, 0 in `b`. -/
noncomputable def abSource : LcSource := .dict [(['a'], ⟨2, [(0, 5), (1, 5)]⟩), (['b'], ⟨2, [(0, 0), (1, 0)]⟩)]

noncomputable def abData : LcData :=
  ⟨[(['a'], [(0 - 0, 5), (1 - 0, 5)]), (['b'], [(0 - 0, 0), (1 - 0, 0)])], 0, none, [(['a'], 0 - 0), (['b'], 0 - 0)],
    [(['a'], 1 - 0), (['b'], 1 - 0)], [(['a'], 0), (['b'], 0)]⟩

theorem ab_data : lcInit abSource 0 false false none = .ok abData := by
  have h1 : lcShiftOne 0 false ⟨2, [(0, 5), (1, 5)]⟩ = .ok [(0 - 0, 5), (1 - 0, 5)] := by
    unfold lcShiftOne
    rw [if_neg (by norm_num), if_neg (by norm_num [npDiff])]
    rfl
  have h2 : lcShiftOne 0 false ⟨2, [(0, 0), (1, 0)]⟩ = .ok [(0 - 0, 0), (1 - 0, 0)] := by
    unfold lcShiftOne
    rw [if_neg (by norm_num), if_neg (by norm_num [npDiff])]
    rfl
  unfold lcInit abSource
  dsimp only [lcSplit]
  unfold lcShiftAll
  rw [h1]
  dsimp only
  unfold lcShiftAll
  rw [h2]
  rfl

theorem ab_proper : ProperSource abSource := by
  show (Dict.keys _).Nodup
  decide

theorem ab_valueA : lcEval abData [0 - 0] ['a'] = .ok [5] := by
  show Except.ok [lcValue [(0 - 0, 5), (1 - 0, 5)] (0 - 0) (1 - 0) 0 (0 - 0)] = _
  norm_num [lcValue, npInterp, interpAt]

theorem ab_valueB : lcEval abData [0 - 0] ['b'] = .ok [0] := by
  show Except.ok [lcValue [(0 - 0, 0), (1 - 0, 0)] (0 - 0) (1 - 0) 0 (0 - 0)] = _
  norm_num [lcValue, npInterp, interpAt]

theorem ab_keys : abData.curves.keys = [['a'], ['b']] := rfl

theorem ab_ind (e : ℝ) (he : 0 ≤ e) (he' : e ≤ 1 / 10 ^ 6) :
    ind (abGroup e) [['a'], ['b']] ['a'] 1 = 1 ∧ ind (abGroup e) [['a'], ['b']] ['a'] 2 = 1 ∧ ind (abGroup e) [['a'], ['b']] ['a'] 3 = 0 ∧
    ind (abGroup e) [['a'], ['b']] ['b'] 2 = 0 ∧ ind (abGroup e) [['a'], ['b']] ['b'] 3 = 1 := by
  have hne : (['b'] : Name) ≠ ['a'] := by decide
  have hne' : (['a'] : Name) ≠ ['b'] := by decide
  have oa : ∀ w, Only (abGroup e) [['a'], ['b']] ['a'] w ↔ (w = 1 ∨ w = 2) ∧ w ≠ 3 := by
    intro w
    unfold Only
    rw [ab_sigA]
    have hb := ab_sigB e w he he'
    constructor
    · rintro ⟨h1, h2⟩
      exact ⟨h1, fun h => h2 ['b'] (by simp) hne (hb.2 h)⟩
    · rintro ⟨h1, h2⟩
      refine ⟨h1, fun f' hf' hne' hs => ?_⟩
      rcases List.mem_cons.1 hf' with e' | hf'
      · exact hne' e'
      · rcases List.mem_cons.1 hf' with rfl | hf'
        · exact h2 (hb.1 hs)
        · cases hf'
  have ob : ∀ w, Only (abGroup e) [['a'], ['b']] ['b'] w ↔ w = 3 ∧ ¬ (w = 1 ∨ w = 2) := by
    intro w
    unfold Only
    rw [ab_sigB e w he he']
    have ha := ab_sigA e w
    constructor
    · rintro ⟨h1, h2⟩
      exact ⟨h1, fun h => h2 ['a'] (by simp) hne' (ha.2 h)⟩
    · rintro ⟨h1, h2⟩
      refine ⟨h1, fun f' hf' hn hs => ?_⟩
      rcases List.mem_cons.1 hf' with rfl | hf'
      · exact h2 (ha.1 hs)
      · rcases List.mem_cons.1 hf' with e' | hf'
        · exact hn e'
        · cases hf'
  refine ⟨if_pos ((oa 1).2 (by norm_num)), if_pos ((oa 2).2 (by norm_num)), if_neg (fun h => ?_), if_neg (fun h => ?_), if_pos ((ob 3).2 (by norm_num))⟩
  · have := (oa 3).1 h; norm_num at this
  · have := (ob 2).1 h; norm_num at this

theorem integrate_pair (filter : Name) (a ta b tb x y : ℝ) :
    (pairBand filter a ta b tb).integrate [x, y] = (b - a) * (y * (tb / b / ((b - a) * (tb / b + ta / a) / 2)) + x * (ta / a / ((b - a) * (tb / b + ta / a) / 2))) / 2 := by
  show (trapCells _).sum = _
  simp [pairBand, trapCells]

theorem ab_model (e : ℝ) (he : 0 ≤ e) (he' : e ≤ 1 / 10 ^ 6) : ∃ m, templateInit abSource 0 false none (abGroup e) true = .ok m ∧ m.data = abData := by
  obtain ⟨i1, i2, i3, i4, i5⟩ := ab_ind e he he'
  have hc := (C50_constructed abSource 0 false none (abGroup e) true ab_proper (ab_reachable e he) (ab_separated e) abData ab_data).2 ⟨rfl, ?_⟩
  · obtain ⟨m, hm⟩ := hc
    refine ⟨m, hm, ?_⟩
    obtain ⟨h1, _⟩ := init_facts ab_proper hm
    rw [ab_data] at h1
    injection h1 with h1
    exact h1.symm
  · intro f hf
    rw [ab_keys] at hf ⊢
    rcases List.mem_cons.1 hf with rfl | hf
    · refine ⟨bandA, rfl, ?_⟩
      have : onGrid (ind (abGroup e) [['a'], ['b']] ['a']) bandA.waves = [1, 1] := by
        show [ind _ _ _ 1, ind _ _ _ 2] = _
        rw [i1, i2]
      rw [this]
      unfold bandA
      rw [integrate_pair]
      norm_num
    · rcases List.mem_cons.1 hf with rfl | hf
      · refine ⟨bandB e, rfl, ?_⟩
        have : onGrid (ind (abGroup e) [['a'], ['b']] ['b']) (bandB e).waves = [0, 1] := by
          show [ind _ _ _ 2, ind _ _ _ 3] = _
          rw [i4, i5]
        rw [this]
        unfold bandB
        rw [integrate_pair]
        norm_num
        positivity
      · cases hf

/-- The hypotheses of `C50_sed_partial` are met by the two bands without a leak: the values 5 and 0 are reproduced. -/
example : ∃ m, templateInit abSource 0 false none (abGroup 0) true = .ok m ∧ NoLeak (abGroup 0) m.data.curves.keys ∧
    ∃ sed, templateSed m 0 [0] bandA.waves = .ok sed ∧ bandA.bandflux sed = .ok [5] := by
  obtain ⟨m, hm, hd⟩ := ab_model 0 le_rfl (by norm_num)
  have hnl : NoLeak (abGroup 0) m.data.curves.keys := by
    rw [hd, ab_keys]
    intro f hf f' hf' hne pb hg w T hwT hT hs
    rcases List.mem_cons.1 hf with rfl | hf
    · rcases List.mem_cons.1 hf' with rfl | hf'
      · exact absurd rfl hne
      · rcases List.mem_cons.1 hf' with rfl | hf'
        · have h3 := (ab_sigB 0 w le_rfl (by norm_num)).1 hs
          rw [ab_getA] at hg
          injection hg with hg
          subst hg
          have := bandA_rows hwT
          rw [h3] at this
          norm_num at this
        · cases hf'
    · rcases List.mem_cons.1 hf with rfl | hf
      · rw [ab_getB] at hg
        injection hg with hg
        subst hg
        rcases List.mem_cons.1 hwT with h | h
        · injection h with _ h
          rw [h]; norm_num
        · rcases List.mem_cons.1 h with h | h
          · exfalso
            injection h with _ h
            rw [h] at hT
            norm_num at hT
          · cases h
      · cases hf
  obtain ⟨pb, sed, gsed, vals, h1, h2, h3, h4, _, _⟩ := C50_sed_partial abSource 0 false none (abGroup 0) true m ab_proper (ab_reachable 0 le_rfl)
    (ab_separated 0) hm hnl 0 [0] (by simp) ['a'] (by rw [hd, ab_keys]; simp)
  rw [ab_getA] at h1
  injection h1 with h1
  subst h1
  rw [hd] at h2
  have hval := ab_valueA.symm.trans h2
  injection hval with hval
  subst hval
  exact ⟨m, hm, hnl, sed, h3, h4⟩

/-- C50 is false through the spectrum when a filter lets through, below the significance threshold, a wavelength of another: the
template's value in `b` is 0 and the bandflux of the model's spectrum in `b` is positive. -/
theorem C50_leak_counterexample :
    ∃ (source : LcSource) (g : PassbandGroup ℝ) (m : TemplateModel) (f : Name) (pb : Passband ℝ) (sed : List (List ℝ)) (x : ℝ),
      ProperSource source ∧ Reachable g ∧ Separated g ∧ templateInit source 0 false none g true = .ok m ∧ f ∈ m.data.curves.keys ∧
      g.getItem f = .ok pb ∧ lcEval m.data [0 - 0] f = .ok [0] ∧ templateSed m 0 [0] pb.waves = .ok sed ∧ pb.bandflux sed = .ok [x] ∧ 0 < x := by
  have he : (0 : ℝ) ≤ 1 / 10 ^ 6 := by norm_num
  obtain ⟨m, hm, hd⟩ := ab_model (1 / 10 ^ 6) he le_rfl
  have hr := ab_reachable (1 / 10 ^ 6) he
  have hsep := ab_separated (1 / 10 ^ 6)
  obtain ⟨_, hw, hn, _, _, hb, v, hv⟩ := init_facts ab_proper hm
  obtain ⟨c, c1, _, c3, c4⟩ := mixture hr hsep hw hn hb v (fun _ h => h) hv
  have hka : ['a'] ∈ m.data.curves.keys := by rw [hd, ab_keys]; simp
  have hkb : ['b'] ∈ m.data.curves.keys := by rw [hd, ab_keys]; simp
  obtain ⟨pb, sed, gsed, e1, e2, e3, e4, _⟩ := c4 0 [0] (by simp) ['b'] hkb
  have va : v ['a'] (0 - 0) = 5 := by
    have h := hv ['a'] hka [0 - 0]
    rw [hd, ab_valueA] at h
    injection h with h
    injection h with h
    exact h.symm
  have vb : v ['b'] (0 - 0) = 0 := by
    have h := hv ['b'] hkb [0 - 0]
    rw [hd, ab_valueB] at h
    injection h with h
    injection h with h
    exact h.symm
  have hc : 0 < c ['b'] ['a'] := by
    obtain ⟨pb', k1, k2⟩ := c3 ['b'] hkb
    obtain ⟨a, a1, a2⟩ := k2 ['a'] hka
    rw [ab_getB] at k1
    injection k1 with k1
    subst k1
    obtain ⟨_, i2, i3, _, _⟩ := ab_ind (1 / 10 ^ 6) he le_rfl
    have : onGrid (ind (abGroup (1 / 10 ^ 6)) m.data.curves.keys ['a']) (bandB (1 / 10 ^ 6)).waves = [1, 0] := by
      rw [hd, ab_keys]
      show [ind _ _ _ 2, ind _ _ _ 3] = _
      rw [i2, i3]
    rw [a2, this]
    apply div_pos ?_ a1
    unfold bandB
    rw [integrate_pair]
    norm_num
  refine ⟨abSource, abGroup (1 / 10 ^ 6), m, ['b'], pb, sed, _, ab_proper, hr, hsep, hm, hkb, e1, ?_, e2, e4, ?_⟩
  · rw [hd]; exact ab_valueB
  · rw [hd, ab_keys]
    simp only [List.map_cons, List.map_nil, List.sum_cons, List.sum_nil]
    rw [va, vb]
    linarith

end LCL.TemplateSedProps
