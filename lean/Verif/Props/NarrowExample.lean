import Verif.Props.Rearrange

/-!
# Cases that meet the hypotheses of C133
-/

namespace LCL.NarrowExample
open LCL LCL.PhysSpec LCL.PassbandSpec LCL.SimSpec LCL.ObsSpec LCL.EndToEnd LCL.EndToEndSpec LCL.EndToEndProps LCL.NarrowSpec LCL.NarrowProps LCL.RearrangeProps

theorem windowed_ok (draw : Nat → ℝ × Nat) {states : List SimState} {args : List SurveyArg} (hne : states ≠ []) (hs : ∀ s ∈ states, ∃ x, s = constState x)
    (ha : ∀ a ∈ args, SoundOpsim a ∧ a.group = gGroup) (b c : ℝ) (r : Nat) :
    ∃ res r', simulate constModel () draw states args [] (some [some b, some c]) r = .ok (res, r') :=
  C110_succeeds draw (fun _ _ _ => 10) hne (fun s h a _ => by obtain ⟨x, rfl⟩ := hs s h; exact observes_in (const_observes x) a.group) (by intros; norm_num)
    (fun a h => by rw [(ha a h).2]; exact gGroup_grid) (fun a h => (ha a h).1) (fun s h => by obtain ⟨x, rfl⟩ := hs s h; exact ⟨_, _, rfl, rfl⟩)
    (Or.inr ⟨_, _, rfl, fun s h => by obtain ⟨x, rfl⟩ := hs s h; exact ⟨_, rfl⟩⟩) r

theorem two_states : ∀ s ∈ [constState 0, constState 90], ∃ x, s = constState x := by
  intro s h; simp only [List.mem_cons, List.not_mem_nil, or_false] at h; rcases h with rfl | rfl <;> exact ⟨_, rfl⟩

theorem two_args {l : List SurveyArg} (h : ∀ a ∈ l, a = twoArg) : ∀ a ∈ l, SoundOpsim a ∧ a.group = gGroup := by
  intro a ha; rw [h a ha]; exact ⟨two_sound, rfl⟩

/-- Two objects in a survey of two visits: the whole run, the run on the first visit only, the run within a day of `t0` and, with the survey given twice, the run of
the first alone all succeed, and the narrower light curves are the matching part of the whole one. -/
example (draw : Nat → ℝ × Nat) : ∃ t res res1 res2 res3 res4 r r1 r2 r3 r4, twoTable.filterRows (.mask [true, false]) = .ok t ∧
    simulate constModel () draw [constState 0, constState 90] [twoArg] [] none 4 = .ok (res, r) ∧
    simulate constModel () draw [constState 0, constState 90] [withTable twoArg t] [] none 5 = .ok (res1, r1) ∧
    simulate constModel () draw [constState 0, constState 90] [twoArg] [] (some [some 1, some 1]) 6 = .ok (res2, r2) ∧
    simulate constModel () draw [constState 0, constState 90] [twoArg, twoArg] [] none 7 = .ok (res3, r3) ∧
    simulate constModel () draw [constState 0, constState 90] ([twoArg, twoArg].take 1) [] none 8 = .ok (res4, r4) ∧
    (∃ obs : List (Nat × Nat), res.nobs[1]? = some obs.length ∧ ∀ c ∈ perfectCols,
      lightcurve res1.nested 1 c = keep (obs.map fun x : Nat × Nat => ([[true, false]].getD x.1 []).getD x.2 false) (lightcurve res.nested 1 c)) ∧
    (∀ c ∈ perfectCols, lightcurve res2.nested 1 c = keep ((lightcurve res.nested 1 "mjd".toList).map (between (3 - 1) (3 + 1))) (lightcurve res.nested 1 c)) ∧
    ∀ c ∈ perfectCols, lightcurve res4.nested 1 c = keep ((lightcurve res3.nested 1 "survey_idx".toList).map (fromFirst 1)) (lightcurve res3.nested 1 c) := by
  obtain ⟨t, ht⟩ := two_split.1
  have ha : ∀ a ∈ [twoArg], SoundOpsim a ∧ a.group = gGroup := two_args (by simp)
  have ha1 : ∀ a ∈ [withTable twoArg t], SoundOpsim a ∧ a.group = gGroup := by
    intro a ha; rw [List.mem_singleton] at ha; subst ha; exact ⟨C133_sound two_sound ht, rfl⟩
  have ha3 : ∀ a ∈ [twoArg, twoArg], SoundOpsim a ∧ a.group = gGroup := two_args (by simp)
  have ha4 : ∀ a ∈ [twoArg, twoArg].take 1, SoundOpsim a ∧ a.group = gGroup := two_args (by simp)
  obtain ⟨res, r, h⟩ := run_ok draw (by simp) two_states ha 4
  obtain ⟨res1, r1, h1⟩ := run_ok draw (by simp) two_states ha1 5
  obtain ⟨res2, r2, h2⟩ := windowed_ok draw (by simp) two_states ha 1 1 6
  obtain ⟨res3, r3, h3⟩ := run_ok draw (by simp) two_states ha3 7
  obtain ⟨res4, r4, h4⟩ := run_ok draw (by simp) two_states ha4 8
  have hr := run_ready (by simp) two_states ha
  refine ⟨t, res, res1, res2, res3, res4, r, r1, r2, r3, r4, ht, h, h1, h2, h3, h4, ?_, ?_, ?_⟩
  · obtain ⟨ra, dec, obs, -, hn, hk⟩ := C133_filter (oneFlux_band _) (args' := [withTable twoArg t]) (masks := [[true, false]]) hr ⟨rfl, rfl⟩ (by
      intro j a m a' e1 e2 e3
      cases j with
      | zero => cases e1; cases e2; cases e3; exact ⟨t, ht, rfl⟩
      | succ j => simp at e1) h h1 1 _ rfl
    exact ⟨obs, hn, hk⟩
  · exact C133_window (oneFlux_band _) hr (by intro x hx; rw [List.mem_singleton] at hx; subst hx; rfl) (Or.inl rfl) h h2 1 _ 3 rfl rfl
  · exact C133_surveys (oneFlux_band _) (run_ready (by simp) two_states ha3) (n := 1) (by simp) h3 h4 1 _ rfl

end LCL.NarrowExample
