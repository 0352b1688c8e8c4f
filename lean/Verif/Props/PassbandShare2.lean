import Verif.Props.PassbandShare

/-!
# C130: a concrete program, and the counterexample
-/

namespace LCL.PassbandShareProps
open LCL LCL.PassbandShare LCL.PassbandShareSpec LCL.PassbandShareLemmas LCL.PassbandGroupProps

/-- Transmission 1 at 100, 150 and 300 Å. -/
def rows : List (ℚ × ℚ) := [(100, 1), (150, 1), (300, 1)]

/-- The passband on its own wavelengths. -/
def coarse : Passband ℚ :=
  { fullName := ['s', '_', 'a'], filterName := ['a'], loaded := rows,
    table := [(100, 3 / 350), (150, 1 / 175), (300, 1 / 350)], waves := [100, 150, 300], deltaWave := none }

/-- The same passband reprocessed with steps of 100 Å. -/
def fine : Passband ℚ :=
  { fullName := ['s', '_', 'a'], filterName := ['a'], loaded := rows,
    table := [(100, 3 / 350), (200, 3 / 700), (300, 1 / 350)], waves := [100, 200, 300], deltaWave := some 100 }

theorem coarse_process : Passband.process rows none none = .ok coarse.table := by
  unfold Passband.process rows
  simp only [Passband.interpolate, Passband.trim, Passband.normalize]
  rw [if_neg (by simp), if_neg (by norm_num [trapezoid, trapCells])]
  norm_num [trapezoid, trapCells, coarse]

theorem fine_process : Passband.process rows (some 100) none = .ok fine.table := by
  have hint : Passband.interpolate rows (some (100 : ℚ)) = .ok [(100, 1), (200, 1), (300, 1)] := by
    unfold Passband.interpolate rows
    have hn : pyInt (((300 : ℚ) - 100) / 100) + 1 = 3 := by
      norm_num [pyInt]
    have hl : linspace (100 : ℚ) 300 3 = [100, 200, 300] := by
      norm_num [linspace, List.range_succ]
    have hc : (npDiff (List.map (fun p : ℚ × ℚ => p.1) [(100, 1), (150, 1), (300, 1)])).all (fun g => decide (isClose g 100)) = false := by
      norm_num [npDiff, isClose]
    dsimp only
    rw [hc, if_neg (by simp)]
    simp only [List.map_cons, List.map_nil, List.headD_cons, List.getLastD_cons, List.getLastD_nil]
    rw [if_neg (by norm_num), hn, if_neg (by norm_num)]
    rw [show Int.toNat 3 = 3 from rfl, hl]
    norm_num [interpAt]
  unfold Passband.process
  rw [hint]
  simp only [Passband.trim, Passband.normalize]
  rw [if_neg (by simp), if_neg (by norm_num [trapezoid, trapCells])]
  norm_num [trapezoid, trapCells, fine]

theorem coarse_init : Passband.init rows ['s'] ['a'] none none "A" = .ok coarse := by
  unfold Passband.init
  have hv : Passband.validate rows = .ok rows := by
    unfold Passband.validate rows
    norm_num [npDiff]
  have hu : Passband.toAngstrom rows "A" = .ok rows := by
    unfold Passband.toAngstrom
    rw [if_neg (by decide), if_pos rfl]
  rw [hv]
  dsimp only
  rw [hu]
  dsimp only
  rw [coarse_process]
  rfl

theorem reprocess_fine : coarse.reprocess (some 100) none = (fine, none) := by
  unfold Passband.reprocess
  rw [show coarse.loaded = rows from rfl, fine_process]
  rfl

/-- The group of one three-point passband. -/
def shown (pb : Passband ℚ) : PassbandGroup ℚ :=
  ⟨[(['s', '_', 'a'], pb)], [(['a'], [['s', '_', 'a']])], pb.waves, [(['s', '_', 'a'], .slice 0 3)]⟩

theorem update_three (pb : Passband ℚ) (hf : pb.filterName = ['a']) (b : ℚ) (h1 : 100 + 1 ≤ b) (h2 : b + 1 ≤ 300)
    (hw : pb.waves = [100, b, 300]) (x : Dict Name (List Name)) (y : List ℚ) (z : Dict Name WaveIdx) :
    PassbandGroup.update ⟨[(['s', '_', 'a'], pb)], x, y, z⟩ = (shown pb, none) := by
  have hgrid : PassbandGroup.gridOf (1 / 10 ^ 5) [(['s', '_', 'a'], pb)] = [100, b, 300] := by
    unfold PassbandGroup.gridOf
    have : ((Dict.values [(['s', '_', 'a'], pb)]).map (·.waves)).flatten = [100, b, 300] := by
      simp [Dict.values, hw]
    rw [this, List.mergeSort_of_pairwise (by
      simp only [List.pairwise_cons, List.mem_cons, List.not_mem_nil, or_false, forall_eq_or_imp, forall_eq, decide_eq_true_eq]
      refine ⟨⟨by linarith, by norm_num⟩, by linarith, by simp, List.Pairwise.nil⟩)]
    simp only [keepGaps, keepAfter]
    rw [if_pos (by norm_num; linarith), if_pos (by norm_num; linarith)]
  have hidx : PassbandGroup.indexOf [100, b, 300] pb.waves = .ok (.slice 0 3) := by
    rw [hw]
    have e1 : searchLeft [100, b, 300] (100 : ℚ) = 0 := by
      simp [searchLeft, List.takeWhile]
    have e2 : searchLeft [100, b, 300] (300 : ℚ) = 2 := by
      have : b < 300 := by linarith
      simp [searchLeft, List.takeWhile, this]
      norm_num
    simp only [PassbandGroup.indexOf, List.head?_cons, List.getLast?_cons_cons, List.getLast?_singleton, e1, e2]
    rw [if_pos (by rfl)]
  unfold PassbandGroup.update
  simp only [hgrid, PassbandGroup.indexAll, hidx]
  unfold shown
  rw [hw]
  simp only [List.foldl_cons, List.foldl_nil, PassbandGroup.addFilter, hf]
  rfl

theorem group_coarse : PassbandGroup.init [coarse] none = .ok (shown coarse) := by
  have hst : PassbandGroup.store [coarse] = [(['s', '_', 'a'], coarse)] := rfl
  unfold PassbandGroup.init
  simp only [List.cons_ne_nil, if_false, hst, PassbandGroup.prune, ne_eq, not_true_eq_false]
  rw [update_three coarse rfl 150 (by norm_num) (by norm_num) rfl]

/-- The world after `pb = Passband(...)`, `a = PassbandGroup([pb])`, `b = PassbandGroup([pb])`. -/
noncomputable def W3 : World ℚ :=
  (step (step (step ⟨[], []⟩ (.passband rows ['s'] ['a'] none none "A")).1 (.group [0] none)).1 (.group [0] none)).1

theorem two_groups : Reachable W3 ∧ W3.bands = [coarse] ∧ W3.groups.length = 2 ∧ Shows W3 0 (shown coarse) ∧
    Shows W3 1 (shown coarse) ∧ Holds W3 0 0 ∧ Holds W3 1 0 := by
  have s1 : step (⟨[], []⟩ : World ℚ) (.passband rows ['s'] ['a'] none none "A") = (⟨[coarse], []⟩, none) := by
    simp only [step, coarse_init]; rfl
  have r1 : Reachable (⟨[coarse], []⟩ : World ℚ) := by
    have := Reachable.step (Reachable.start (K := ℚ)) (.passband rows ['s'] ['a'] none none "A")
    rw [s1] at this; exact this
  obtain ⟨g, e1, e2, e3, e4⟩ := (group_call (reachable_inv r1) [0] none (by simp)).1 (shown coarse) group_coarse
  have r2 : Reachable (⟨[coarse], [g]⟩ : World ℚ) := by
    have := Reachable.step r1 (.group [0] none)
    rw [e1] at this; exact this
  obtain ⟨g', f1, f2, f3, f4⟩ := (group_call (reachable_inv r2) [0] none (by simp)).1 (shown coarse) group_coarse
  have r3 : Reachable (⟨[coarse], [g, g']⟩ : World ℚ) := by
    have := Reachable.step r2 (.group [0] none)
    rw [f1] at this; exact this
  have hW : W3 = ⟨[coarse], [g, g']⟩ := by
    unfold W3
    rw [s1]
    dsimp only
    rw [e1]
    dsimp only [List.nil_append]
    rw [f1]
    rfl
  have holds : ∀ g : RefGroup ℚ, seen [coarse] g = shown coarse → GroupOk [coarse] g → g.members.get? ['s', '_', 'a'] = some 0 := by
    intro g h ok
    have h1 : deref [coarse] g.members = [(['s', '_', 'a'], coarse)] := congrArg PassbandGroup.passbands h
    have h2 := deref_get ok.1.valid ['s', '_', 'a']
    rw [h1] at h2
    cases hm : g.members.get? ['s', '_', 'a'] with
    | none =>
      rw [hm, Dict.get?_cons, if_pos rfl] at h2
      cases h2
    | some r =>
      obtain ⟨pb, h3⟩ := ok.1.valid _ r (Dict.mem_of_get? hm)
      rcases Nat.eq_zero_or_pos r with h | h
      · rw [h]
      · rw [List.getElem?_eq_none (by simp only [List.length_singleton]; omega)] at h3; cases h3
  rw [hW]
  exact ⟨r3, rfl, rfl, ⟨g, rfl, e2⟩, ⟨g', rfl, f2⟩, ⟨g, _, rfl, holds g e2 e3⟩, ⟨g', _, rfl, holds g' f2 f3⟩⟩

theorem process_shown : (shown coarse).process (some 100) none = (shown fine, none) := by
  unfold PassbandGroup.process
  have : PassbandGroup.reprocessAll (some 100) none (shown coarse).passbands = ([(['s', '_', 'a'], fine)], none) := by
    show PassbandGroup.reprocessAll (some 100) none [(['s', '_', 'a'], coarse)] = _
    simp only [PassbandGroup.reprocessAll, reprocess_fine]
  rw [this]
  exact update_three fine rfl 200 (by norm_num) (by norm_num) rfl _ _ _

/-- A concrete program: after `b.process_transmission_tables(100, None)` the group `b` is up to date
and its grid separated. -/
theorem C130_example : UpToDate (step W3 (.process 1 (some 100) none)).1 1 ∧
    Shows (step W3 (.process 1 (some 100) none)).1 1 (shown fine) ∧ Separated (shown fine) := by
  obtain ⟨hr, _, _, _, h1, _, _⟩ := two_groups
  obtain ⟨p1, p2⟩ := (C130_calls W3 hr).2.2 1 _ (some 100) none h1
  rw [process_shown] at p1 p2
  refine ⟨.call hr (op := .process 1 (some 100) none) rfl (W' := (step W3 (.process 1 (some 100) none)).1) ?_, p1, ?_⟩
  · dsimp only at p2
    rw [← p2]
  · intro pb h pb' h' a ha b hb hab
    have e : pb = fine := by simpa [shown, Dict.values] using h
    have e' : pb' = fine := by simpa [shown, Dict.values] using h'
    subst e e'
    have ha : a = 100 ∨ a = 200 ∨ a = 300 := by simpa [fine] using ha
    have hb : b = 100 ∨ b = 200 ∨ b = 300 := by simpa [fine] using hb
    rcases ha with rfl | rfl | rfl <;> rcases hb with rfl | rfl | rfl <;> first | (exfalso; revert hab; norm_num; done) | norm_num

/-- C130 is false for passbands reprocessed elsewhere: two groups are built from one passband on
100, 150 and 300 Å. After `process_transmission_tables(delta_wave=100)` on the second, the passband is
on 100, 200 and 300 Å; the first still has its old grid, so the fluxes of the spectrum `f(w) = w` on
that grid are weighted as if they were taken at 100, 200 and 300 Å, and its band flux is wrong, with
no error. The group built now from the same passband has it right. -/
theorem C130_shared_counterexample :
    ∃ W : World ℚ, Reachable W ∧ ∃ s pb, Shows W 0 s ∧ s.passbands.get? ['s', '_', 'a'] = some pb ∧
      (∃ v, s.bandflux [onGrid (fun w => w) s.waves] ['s', '_', 'a'] = .ok [v] ∧
        pb.bandflux [onGrid (fun w => w) pb.waves] ≠ .ok [v]) ∧
      ∃ fresh, PassbandGroup.init s.passbands.values none = .ok fresh ∧
        fresh.bandflux [onGrid (fun w => w) fresh.waves] ['s', '_', 'a'] = pb.bandflux [onGrid (fun w => w) pb.waves] := by
  obtain ⟨hr, hb, _, ⟨g, hg, hs⟩, ⟨g', hg', hs'⟩, ⟨_, n, e, hn⟩, ⟨_, n', e', hn'⟩⟩ := two_groups
  rw [hg] at e; cases e
  rw [hg'] at e'; cases e'
  have hI := reachable_inv hr
  obtain ⟨k, bands, er, k1, k2, k3, k4, k6, k5⟩ := process_call hI hg' (some 100) none
  rw [hs', process_shown] at k3
  have her : er = none := (congrArg Prod.snd k3).symm
  have hk : seen bands k = shown fine := (congrArg Prod.fst k3).symm
  have hr' : Reachable (step W3 (.process 1 (some 100) none)).1 := Reachable.step hr _
  rw [k1] at hr'
  -- the passband object is now the fine one
  have hfine : bands[0]? = some fine := by
    have hm : k.members.get? n' = some 0 := by rw [k6]; exact hn'
    have h2 := deref_get k4.1.valid n'
    rw [hm, Option.bind_some] at h2
    have h1 : deref bands k.members = [(['s', '_', 'a'], fine)] := congrArg PassbandGroup.passbands hk
    rw [← h2, h1, Dict.get?_cons]
    by_cases hc : ['s', '_', 'a'] = n'
    · rw [if_pos hc]
    · exfalso
      rw [h1, Dict.get?_cons, if_neg hc] at h2
      obtain ⟨pb, hp⟩ := k4.1.valid n' 0 (Dict.mem_of_get? hm)
      rw [hp] at h2
      simp at h2
  have hlen : bands.length = 1 := by
    rw [k2, (reprocessRefs_frame (e := (reprocessRefs (some 100) none g'.members W3.bands).2) rfl).1, hb]; rfl
  have hbands : bands = [fine] := by
    match bands, hlen, hfine with
    | [x], _, h => simpa using h
  have hmem : deref [coarse] g.members = [(['s', '_', 'a'], coarse)] := by
    rw [← hb]; exact congrArg PassbandGroup.passbands hs
  have hok := (hI.groups 0 g hg).1
  rw [hb] at hok
  have hgm : ∃ r, g.members = [(['s', '_', 'a'], r)] := by
    have hkeys := deref_keys hok.valid
    rw [hmem] at hkeys
    match hg : g.members, hkeys with
    | [(a, r)], h =>
      have : a = ['s', '_', 'a'] := by simpa [Dict.keys] using h.symm
      exact ⟨r, by rw [this]⟩
  obtain ⟨r, hgm⟩ := hgm
  have hr0 : r = 0 := by
    have : n = ['s', '_', 'a'] ∧ r = 0 := by
      rw [hgm, Dict.get?_cons] at hn
      split at hn
      · rename_i h; cases hn; exact ⟨h.symm, rfl⟩
      · simp at hn
    exact this.2
  subst hr0
  have hshow : seen [fine] g = ⟨[(['s', '_', 'a'], fine)], [(['a'], [['s', '_', 'a']])], [100, 150, 300], [(['s', '_', 'a'], .slice 0 3)]⟩ := by
    have e1 : g.filterToName = _ := congrArg PassbandGroup.filterToName hs
    have e2 : g.waves = _ := congrArg PassbandGroup.waves hs
    have e3 : g.indices = _ := congrArg PassbandGroup.indices hs
    unfold seen
    rw [hgm, e1, e2, e3]
    rfl
  have hbf : ∀ x y z : ℚ, fine.bandflux [[x, y, z]] = .ok [fine.integrate [x, y, z]] := by
    intro x y z
    simp [Passband.bandflux, fine]
  refine ⟨_, hr', seen [fine] g, fine, ⟨g, ?_, by rw [hbands]⟩, by rw [hshow]; rfl, ?_, shown fine, ?_, ?_⟩
  · dsimp only
    rw [List.getElem?_set_ne (by simp)]
    exact hg
  · refine ⟨fine.integrate [100, 150, 300], ?_, ?_⟩
    · rw [hshow, ← hbf]
      rfl
    · have : fine.bandflux [onGrid (fun w => w) fine.waves] = .ok [fine.integrate [100, 200, 300]] := by
        rw [← hbf]; rfl
      rw [this]
      intro h
      simp only [Except.ok.injEq, List.cons.injEq, and_true] at h
      norm_num [Passband.integrate, fine] at h
  · rw [hshow]
    have hst : PassbandGroup.store [fine] = [(['s', '_', 'a'], fine)] := rfl
    show PassbandGroup.init [fine] none = _
    unfold PassbandGroup.init
    simp only [List.cons_ne_nil, if_false, hst, PassbandGroup.prune, ne_eq, not_true_eq_false]
    rw [update_three fine rfl 200 (by norm_num) (by norm_num) rfl]
  · rfl

end LCL.PassbandShareProps
