import Verif.Props.PassbandShare2
import Verif.Props.PassbandGroup2

/-!
# A group of two passbands that share a wavelength: a case that meets the hypotheses of C29, C30 and C64
-/

namespace LCL.GroupExample
open LCL LCL.PassbandGroupProps LCL.PassbandShareProps

/-- Transmission 1 at 300, 400 and 600 Å. -/
def rows2 : List (ℚ × ℚ) := [(300, 1), (400, 1), (600, 1)]

theorem red_init : ∃ pb : Passband ℚ, Passband.init rows2 ['s'] ['b'] none none "A" = .ok pb ∧ pb.fullName = ['s', '_', 'b'] ∧ pb.filterName = ['b'] ∧
    pb.waves = [300, 400, 600] := by
  have hv : Passband.validate rows2 = .ok rows2 := by
    unfold Passband.validate rows2
    norm_num [npDiff]
  have hu : Passband.toAngstrom rows2 "A" = .ok rows2 := by
    unfold Passband.toAngstrom
    rw [if_neg (by decide), if_pos rfl]
  have hp : ∃ t, Passband.process rows2 none none = .ok t ∧ t.map (·.1) = [300, 400, 600] := by
    unfold Passband.process rows2
    simp only [Passband.interpolate, Passband.trim, Passband.normalize]
    rw [if_neg (by simp), if_neg (by norm_num [trapezoid, trapCells])]
    exact ⟨_, rfl, rfl⟩
  obtain ⟨t, ht, hw⟩ := hp
  refine ⟨{ fullName := ['s', '_', 'b'], filterName := ['b'], loaded := rows2, table := t, waves := t.map (·.1), deltaWave := none }, ?_, rfl, rfl, hw⟩
  unfold Passband.init
  rw [hv]
  dsimp only
  rw [hu]
  dsimp only
  rw [ht]
  rfl

/-- The group of both. -/
def both (pb : Passband ℚ) : PassbandGroup ℚ :=
  ⟨[(['s', '_', 'a'], coarse), (['s', '_', 'b'], pb)], [(['a'], [['s', '_', 'a']]), (['b'], [['s', '_', 'b']])], [100, 150, 300, 400, 600],
    [(['s', '_', 'a'], .slice 0 3), (['s', '_', 'b'], .slice 2 5)]⟩

theorem both_init {pb : Passband ℚ} (h1 : pb.fullName = ['s', '_', 'b']) (h2 : pb.filterName = ['b']) (h3 : pb.waves = [300, 400, 600]) :
    PassbandGroup.init [coarse, pb] none = .ok (both pb) := by
  have hst : PassbandGroup.store [coarse, pb] = [(['s', '_', 'a'], coarse), (['s', '_', 'b'], pb)] := by
    obtain ⟨n, f, l, t, w, d⟩ := pb
    simp only at h1 h2 h3
    subst h1
    rfl
  have hgrid : PassbandGroup.gridOf (1 / 10 ^ 5) [(['s', '_', 'a'], coarse), (['s', '_', 'b'], pb)] = [100, 150, 300, 400, 600] := by
    unfold PassbandGroup.gridOf
    have : ((Dict.values [(['s', '_', 'a'], coarse), (['s', '_', 'b'], pb)]).map (·.waves)).flatten = [100, 150, 300, 300, 400, 600] := by
      simp [Dict.values, h3, coarse]
    rw [this, List.mergeSort_of_pairwise (by
      simp only [List.pairwise_cons, List.mem_cons, List.not_mem_nil, or_false, forall_eq_or_imp, forall_eq, decide_eq_true_eq]
      norm_num)]
    norm_num [keepGaps, keepAfter]
  have i1 : PassbandGroup.indexOf [100, 150, 300, 400, 600] coarse.waves = .ok (.slice 0 3) := by
    norm_num [PassbandGroup.indexOf, coarse, searchLeft, List.takeWhile]
  have i2 : PassbandGroup.indexOf [100, 150, 300, 400, 600] pb.waves = .ok (.slice 2 5) := by
    norm_num [PassbandGroup.indexOf, h3, searchLeft, List.takeWhile]
  unfold PassbandGroup.init
  simp only [List.cons_ne_nil, if_false, hst, PassbandGroup.prune, ne_eq, not_true_eq_false]
  unfold PassbandGroup.update
  simp only [hgrid, PassbandGroup.indexAll, i1, i2]
  simp only [List.foldl_cons, List.foldl_nil, PassbandGroup.addFilter, h2]
  rfl

/-- C29, C30: the group is one a program can build, its grid has the shared wavelength once, both bands integrate a spectrum given on the
grid as they do on their own wavelengths, and both are found by filter and by full name. -/
example : ∃ g : PassbandGroup ℚ, ∃ pb, PassbandGroupProps.Reachable g ∧ Separated g ∧ g.waves = [100, 150, 300, 400, 600] ∧
    (∀ f : ℚ → ℚ, g.bandflux [onGrid f g.waves] ['s', '_', 'b'] = pb.bandflux [onGrid f pb.waves]) ∧
    (∀ f : ℚ → ℚ, g.bandflux [onGrid f g.waves] ['s', '_', 'a'] = coarse.bandflux [onGrid f coarse.waves]) ∧
    g.getItem ['b'] = .ok pb ∧ g.getItem ['s', '_', 'a'] = .ok coarse ∧ g.getItem ['z'] = .error .keyError := by
  obtain ⟨pb, hi, h1, h2, h3⟩ := red_init
  have hr : PassbandGroupProps.Reachable (both pb) := by
    refine .init (given := [coarse, pb]) ?_ (both_init h1 h2 h3)
    intro q hq
    simp only [List.mem_cons, List.not_mem_nil, or_false] at hq
    rcases hq with rfl | rfl
    · exact ⟨_, _, _, _, _, _, coarse_init⟩
    · exact ⟨_, _, _, _, _, _, hi⟩
  have hs : Separated (both pb) := by
    intro p hp p' hp' a ha b hb hab
    have hv : (both pb).passbands.values = [coarse, pb] := rfl
    rw [hv] at hp hp'
    simp only [List.mem_cons, List.not_mem_nil, or_false] at hp hp'
    have ha' : a ∈ [(100 : ℚ), 150, 300, 400, 600] := by
      rcases hp with rfl | rfl
      · simp only [coarse, List.mem_cons, List.not_mem_nil, or_false] at ha ⊢; tauto
      · rw [h3] at ha; simp only [List.mem_cons, List.not_mem_nil, or_false] at ha ⊢; tauto
    have hb' : b ∈ [(100 : ℚ), 150, 300, 400, 600] := by
      rcases hp' with rfl | rfl
      · simp only [coarse, List.mem_cons, List.not_mem_nil, or_false] at hb ⊢; tauto
      · rw [h3] at hb; simp only [List.mem_cons, List.not_mem_nil, or_false] at hb ⊢; tauto
    simp only [List.mem_cons, List.not_mem_nil, or_false] at ha' hb'
    rcases ha' with rfl | rfl | rfl | rfl | rfl <;> rcases hb' with rfl | rfl | rfl | rfl | rfl <;> first | (norm_num; done) | exact absurd hab (by norm_num)
  obtain ⟨-, -, hf, -⟩ := C29_shared_grid_partial (both pb) hr hs
  refine ⟨both pb, pb, hr, hs, rfl, fun f => hf _ pb rfl [f], fun f => hf _ coarse rfl [f], rfl, rfl, rfl⟩

/-- C64: a group restricted to the second filter. -/
example : ∃ g : PassbandGroup ℚ, ∃ pb, PassbandGroup.init [pb] (some [['b']]) = .ok g ∧ g.passbands.get? ['s', '_', 'b'] = some pb ∧
    PassbandGroup.init [coarse, pb] (some [['z']]) = .error .valueError := by
  obtain ⟨pb, hi, h1, h2, h3⟩ := red_init
  refine ⟨⟨[(['s', '_', 'b'], pb)], [(['b'], [['s', '_', 'b']])], [300, 400, 600], [(['s', '_', 'b'], .slice 0 3)]⟩, pb, ?_, rfl, ?_⟩
  · have hst : PassbandGroup.store [pb] = [(['s', '_', 'b'], pb)] := by
      obtain ⟨n, f, l, t, w, d⟩ := pb
      simp only at h1 h2 h3
      subst h1
      rfl
    have hgrid : PassbandGroup.gridOf (1 / 10 ^ 5) [(['s', '_', 'b'], pb)] = [300, 400, 600] := by
      unfold PassbandGroup.gridOf
      have : ((Dict.values [(['s', '_', 'b'], pb)]).map (·.waves)).flatten = [300, 400, 600] := by
        simp [Dict.values, h3]
      rw [this, List.mergeSort_of_pairwise (by
        simp only [List.pairwise_cons, List.mem_cons, List.not_mem_nil, or_false, forall_eq_or_imp, forall_eq, decide_eq_true_eq]
        norm_num)]
      norm_num [keepGaps, keepAfter]
    have i2 : PassbandGroup.indexOf [300, 400, 600] pb.waves = .ok (.slice 0 3) := by
      norm_num [PassbandGroup.indexOf, h3, searchLeft, List.takeWhile]
    have hp : PassbandGroup.prune [(['s', '_', 'b'], pb)] (some [['b']]) = ([(['s', '_', 'b'], pb)], []) := by
      simp only [PassbandGroup.prune, List.foldl_cons, List.foldl_nil, PassbandGroup.pruneStep, h2]
      rfl
    unfold PassbandGroup.init
    simp only [List.cons_ne_nil, if_false, hst, hp, ne_eq, not_true_eq_false]
    unfold PassbandGroup.update
    simp only [hgrid, PassbandGroup.indexAll, i2]
    simp only [List.foldl_cons, List.foldl_nil, PassbandGroup.addFilter, h2]
    rfl
  · refine (C64_filters_partial [coarse, pb] [['z']]).2.1 ⟨['z'], by simp, ?_⟩
    intro q hq
    simp only [List.mem_cons, List.not_mem_nil, or_false] at hq
    rcases hq with rfl | rfl
    · exact ⟨by decide, by decide⟩
    · rw [h1, h2]; exact ⟨by decide, by decide⟩

end LCL.GroupExample
