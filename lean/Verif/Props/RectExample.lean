import Verif.Props.RectSurvey
import Verif.Props.PointingExample
import Mathlib.Analysis.Real.Pi.Bounds

/-!
# A concrete run for C150: the survey of one visit with a rectangular detector
-/

namespace LCL.RectProps
open LCL LCL.ObsSpec LCL.FootprintSpec LCL.RectSpec LCL.EndToEndSpec LCL.FullRun LCL.FullRunSpec LCL.EndToEnd LCL.NodeSpec LCL.GraphSpec LCL.SimSpec LCL.PhotSpec LCL.EndToEndProps Real

/-- A detector of three by two degrees. -/
theorem rect_made : ∃ fp, Footprint.fromRect 3 2 (some 1) = .ok fp :=
  let ⟨fp, h, _⟩ := (FootprintProps.C53_rectangle 3 2 (some 1)).1 1 rfl (by norm_num) (by norm_num) (by norm_num)
  ⟨fp, h⟩

noncomputable def rectFp : Footprint := rect_made.choose

/-- The survey of one visit, with the detector and a radius of two degrees. -/
noncomputable def rectTable : ObsTable :=
  ⟨lsstRows, [0], [], [("radius".toList, .num 2), ("pixel_scale".toList, .num 0.2), ("read_noise".toList, .num 8.8), ("dark_current".toList, .num 0.2)], ["g".toList], [ObsTable.toCart 0 0],
    some rectFp.containsAt⟩

theorem rect_built : Built rectTable := by
  refine .init (required := ObsTable.baseRequired) (zp := fun t => .ok t) (cols := lsstRows) (labels := [0]) (colmap := []) (survey := rectTable.survey) (fp := some rectFp.containsAt)
    (by simp [lsstRows]) (by decide) (by simp) (by intro u u' h e; cases e; exact h) ?_
  have h1 : ObsTable.numCol lsstRows "ra".toList = .ok [0] := rfl
  have h2 : ObsTable.numCol lsstRows "dec".toList = .ok [0] := rfl
  have h3 : ObsTable.rename [] lsstRows = lsstRows := rfl
  unfold ObsTable.init
  simp only [ObsTable.remap, h3]
  rw [if_pos (by decide), lsst_unique]
  simp only
  rw [if_pos (by simp [ObsTable.contains, lsstRows, Dict.has, Dict.get?])]
  simp only [ObsTable.buildTree, h1, h2]
  rfl

theorem rect_survey : RectSurvey rectTable 3 2 := ⟨1, rectFp, by norm_num, by norm_num, by norm_num, rect_made.choose_spec, rfl⟩

theorem rect_radius : √((3 : ℝ) ^ 2 + 2 ^ 2) / 2 ≤ 2 := by
  have : √((3 : ℝ) ^ 2 + 2 ^ 2) ≤ 4 := by rw [sqrt_le_left (by norm_num)]; norm_num
  rw [div_le_iff₀ (by norm_num)]
  exact this.trans (by norm_num)

/-- The hypotheses of `C150_search` are met. -/
example : ∃ out, rectTable.rangeSearch (.arr [some 0, some 1]) (.arr [some 0, some 0]) (some 2) .none .none = .ok out :=
  RangeSearchProps.C37_succeeds rect_built (qs := [(0, 0), (1, 0)]) (times := [7]) rfl rfl _ _ (Or.inl rfl) (Or.inl rfl) (Or.inl rfl)

noncomputable def rectArg : SurveyArg := ⟨.opsim, rectTable, gGroup⟩

theorem rect_row {n : Name} {v : ℝ} (hc : lsstTable.cols.get? n = some [.num v]) {q : Nat} {x : ℝ} (h : rowNum rectTable n q = some x) : x = v := one_row hc h

theorem rect_sound : SoundOpsim rectArg where
  kind := rfl
  built := rect_built
  radius := ⟨2, rfl, by norm_num, by norm_num⟩
  time := ⟨[7], rfl⟩
  filter := lsst_sound.filter
  rotation := Or.inl rfl
  cols := lsst_sound.cols
  zp := by intro q x h; rw [rect_row (v := 2) rfl h]; norm_num
  exptime := by intro q x h; rw [rect_row (v := 30) rfl h]; norm_num
  nexposure := by intro q x h; rw [rect_row (v := 1) rfl h]; norm_num
  scale := ⟨0.2, rfl⟩
  readNoise := ⟨8.8, rfl⟩
  dark := ⟨0.2, rfl, by norm_num⟩

/-- Half a degree above the pointing is on the detector. -/
theorem half_on (rot : ℝ) : OnDetector 3 2 0 (1 / 2) 0 0 rot := by
  have hpi := pi_pos
  have htan : tan (1 / 2 * (π / 180)) * (180 / π) < 1 := by
    set x : ℝ := 1 / 2 * (π / 180) with hx
    have h3 := pi_lt_d2
    have hx0 : 0 < x := by positivity
    have hx1 : x < 1 / 100 := by rw [hx]; linarith
    have hc : 0 < cos x := cos_pos_of_mem_Ioo ⟨by linarith, by linarith [pi_gt_three]⟩
    have hcl : 1 - x ^ 2 / 2 ≤ cos x := one_sub_sq_div_two_le_cos
    have hs : sin x < x := sin_lt hx0
    rw [tan_eq_sin_div_cos, div_mul_eq_mul_div, div_lt_one hc]
    have e : sin x * (180 / π) < x * (180 / π) := mul_lt_mul_of_pos_right hs (by positivity)
    have e2 : x * (180 / π) = 1 / 2 := by rw [hx]; field_simp
    nlinarith
  refine C150_disc (ρ := 1 / 2) rot (by norm_num) (by linarith) (by linarith) ?_
  have := PointingRunProps.sep_le (ra := 0) (dec := 0) (x := 0) (y := 1 / 2) (R := 1 / 2) (by norm_num) (by norm_num)
  simpa using this

/-- Two sources half a degree from the pointing, in a run with this survey: both are observed, once each, because the detector covers them. -/
example (draw : Unit → ℝ × Unit) : ∃ out : Outcome Unit,
    simulateFullWith false (fun _ _ => PointingRunProps.tenEv) draw [PointingRunProps.srcNode none [], PointingRunProps.smpNode none []] 0 [] 2 [rectArg] [] [] (some [some 1, some 2]) () = .ok out ∧
    ∃ nobs : List Nat, nobs.length = 2 ∧ IsColumn out.table "nobs" 2 (fun k => nobs[k]?.map .int) ∧ ∀ c ∈ nobs, 0 < c := by
  obtain ⟨r, hsp, hst, hnum⟩ := PointingRunProps.src_sample
  obtain ⟨out, ho⟩ := PointingRunProps.sim_ok draw rect_sound
  refine ⟨out, ho, ?_⟩
  obtain ⟨nd, N, w0, nobs, g1, g2, g4, g5, g6⟩ := C150_run PointingRunProps.src_graph PointingRunProps.src_physical
    (fun _ _ _ _ x => x = 10) (by intro c hc; cases hc) (List.cons_ne_nil _ _) (by intro a ha; rw [List.mem_singleton] at ha; subst ha; exact rect_built) (fun _ => 3) (fun _ => 2)
    (by intro a ha; rw [List.mem_singleton] at ha; subst ha; exact ⟨rect_survey, 2, rfl, rect_radius, by norm_num⟩) (by simp) ho
    (by
      intro nd _ a ts fs st r p r' h
      simp only [PointingRunProps.tenEv] at h
      split at h
      · cases h; simp
      · cases h)
    (by
      intro nd st k a _ _ _ _ ts fs r p r' h
      simp only [PointingRunProps.tenEv] at h
      split at h
      · rename_i hl
        cases h
        refine ⟨rfl, by simp, hl, ?_⟩
        intro i t f x _ _ hx
        rw [List.getElem?_map] at hx
        cases ht : ts[i]? with
        | none => rw [ht] at hx; cases hx
        | some y => rw [ht] at hx; cases hx; rfl
      · cases h)
  have hN : N = 2 := by omega
  subst hN
  refine ⟨nobs, g4, g5, fun c hc => ?_⟩
  obtain ⟨k, hk, rfl⟩ := List.getElem_of_mem hc
  obtain ⟨_, _, run, h1, h2, _⟩ := FullRunProps.C119_sampled PointingRunProps.src_graph ho
  rw [hsp] at h1
  have hgr : out.graph = [PointingRunProps.srcNode (some 0) "source".toList, PointingRunProps.smpNode (some 1) "where".toList] := (congrArg Prod.fst (Except.ok.inj h1)).symm
  have hs : out.sampled = r.gs := by rw [← h2, ← (Prod.mk.inj (Except.ok.inj h1)).2]
  rw [hgr] at g1
  have hnd : nd = PointingRunProps.srcNode (some 0) "source".toList := (Option.some.inj g1).symm
  obtain ⟨st, ra, dec, t0, obs, -, a2, a3, a4, a5, -, a7, -⟩ := g6 k (by omega)
  obtain ⟨hsh, -⟩ := FullRunProps.base_parts PointingRunProps.src_graph PointingRunProps.src_physical hsp (nd := PointingRunProps.srcNode (some 0) "source".toList) rfl
  have hval : ∀ p x, PointingRunProps.srcParams.get? p = some (.arr [.scalar x, .scalar x]) → sampleValue r.gs "source".toList p k = some (.scalar x) := by
    intro p x hp
    unfold sampleValue
    rw [if_neg (by omega), GraphLemmas.read_eq_look _ hsh]
    unfold GraphLemmas.look
    rw [hst, Dict.get?_cons, if_neg (by decide), Dict.get?_cons, if_pos rfl, Option.bind_some, hp]
    have : k = 0 ∨ k = 1 := by omega
    rcases this with rfl | rfl <;> rfl
  rw [hs, hnd] at a2 a3 a4
  have b1 := a2.symm.trans (hval "ra".toList 0 rfl)
  have b2 := a3.symm.trans (hval "dec".toList (1 / 2) rfl)
  have b3 := a4.symm.trans (hval "t0".toList 7 rfl)
  have c1 : ra = 0 := by injection b1 with b1; injection b1
  have c2 : dec = 1 / 2 := by injection b2 with b2; injection b2
  have c3 : t0 = some 7 := by
    cases t0 with
    | none => cases b3
    | some z => simp only [cellOf, Option.some.injEq, Val.scalar.injEq] at b3; rw [b3]
  subst c1; subst c2; subst c3
  have hin : (0, 0) ∈ obs := (a7 0 0).2 ⟨rectArg, rfl, 0, 0, rfl, rfl, half_on _, by
    intro b hb
    refine ⟨7, rfl, ?_⟩
    cases hb; norm_num, by
    intro b hb
    refine ⟨7, rfl, ?_⟩
    simp only [winHi, Option.some.injEq] at hb; rw [← hb]; norm_num⟩
  rw [List.getElem?_eq_getElem hk] at a5
  have e := Option.some.inj a5
  rw [show nobs[k] = obs.length from e]
  exact List.length_pos_of_mem hin

end LCL.RectProps
