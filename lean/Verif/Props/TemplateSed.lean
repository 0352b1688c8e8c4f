import Verif.Lemmas.TemplateSed

/-!
# Property C50: template models reproduce their lightcurves
-/

namespace LCL.TemplateSedProps
open LCL LCL.TemplateSedSpec LCL.TemplateSedLemmas LCL.PassbandGroupProps LCL.TemplateLemmas LCL.PassbandLemmas LCL.PassbandProps

/-- What a constructed template model holds. -/
theorem init_facts {source : LcSource} {lcT0 : ℝ} {periodic : Bool} {baseline : Option (Dict Name ℝ)} {g : PassbandGroup ℝ} {t0Given : Bool}
    {m : TemplateModel} (hp : ProperSource source) (hm : templateInit source lcT0 periodic baseline g t0Given = .ok m) :
    lcInit source lcT0 periodic false baseline = .ok m.data ∧ m.allWaves = g.waves ∧ m.data.curves.keys.Nodup ∧
    (∀ f ∈ m.data.curves.keys, g.contains f = true) ∧ t0Given = true ∧
    createSedBasis g m.data.curves.keys = .ok m.basis ∧
    ∃ v : Name → ℝ → ℝ, ∀ f ∈ m.data.curves.keys, ∀ times, lcEval m.data times f = .ok (times.map (v f)) := by
  unfold templateInit at hm
  cases h1 : lcInit source lcT0 periodic false baseline with
  | error e => rw [h1] at hm; cases hm
  | ok d =>
    rw [h1] at hm
    dsimp only at hm
    unfold templateBase at hm
    split at hm
    · cases hm
    · rename_i b hb
      injection hm with hm
      subst hm
      split at hb
      · cases hb
      · rename_i hall
        rw [not_not] at hall
        split at hb
        · cases hb
        · rename_i basis hbasis
          split at hb
          · rename_i ht
            injection hb with hb
            subst hb
            obtain ⟨k1, k2⟩ := init_data h1 hp
            refine ⟨rfl, rfl, k1, hall, ht, hbasis, ?_⟩
            refine ⟨fun f => if hf : f ∈ d.curves.keys then (k2 f hf).choose else fun _ => 0, ?_⟩
            intro f hf times
            dsimp only at hf ⊢
            rw [dif_pos hf]
            exact (k2 f hf).choose_spec times
          · cases hb

/-- The spectrum of a constructed model, on any wavelengths of the group. -/
theorem sed_spec {g : PassbandGroup ℝ} (hr : Reachable g) (hsep : Separated g) {m : TemplateModel} {fs : List Name} (hw : m.allWaves = g.waves)
    (hn : fs.Nodup) (hb : createSedBasis g fs = .ok m.basis) (v : Name → ℝ → ℝ) (hs : ∀ f ∈ m.data.curves.keys, f ∈ fs)
    (hv : ∀ f ∈ m.data.curves.keys, ∀ times, lcEval m.data times f = .ok (times.map (v f))) :
    ∃ q : Name → ℝ → ℝ,
      (∀ f ∈ fs, ∃ pb c, g.getItem f = .ok pb ∧ 0 < c ∧ c = pb.integrate (onGrid (ind g fs f) pb.waves) ∧
        ∀ w, q f w = ind g fs f w / c) ∧
      ∀ (t0 : ℝ) (times waves : List ℝ), (∀ w ∈ waves, w ∈ g.waves) →
        templateSed m t0 times waves =
          .ok (times.map fun t => waves.map fun w => (m.data.curves.keys.map fun f => v f (t - t0) * q f w).sum) := by
  have hbs := basis_spec hr hsep hn hb
  obtain ⟨s1, _, _, _⟩ := C29_shared_grid_partial g hr hsep
  have hq : ∃ q : Name → ℝ → ℝ, ∀ f ∈ fs, m.basis.get? f = some (onGrid (q f) g.waves) ∧
      ∃ pb c, g.getItem f = .ok pb ∧ 0 < c ∧ c = pb.integrate (onGrid (ind g fs f) pb.waves) ∧
        ∀ w, q f w = ind g fs f w / c := by
    have h0 : ∀ f, ∃ q : ℝ → ℝ, f ∈ fs → m.basis.get? f = some (onGrid q g.waves) ∧
        ∃ pb c, g.getItem f = .ok pb ∧ 0 < c ∧ c = pb.integrate (onGrid (ind g fs f) pb.waves) ∧
          ∀ w, q w = ind g fs f w / c := by
      intro f
      by_cases hf : f ∈ fs
      · obtain ⟨b, h1, pb, h2, h3, h4⟩ := hbs f hf
        exact ⟨_, fun _ => ⟨by rw [h1, h4], pb, _, h2, h3, rfl, fun w => rfl⟩⟩
      · exact ⟨fun _ => 0, fun h => absurd h hf⟩
    choose q hq using h0
    exact ⟨q, hq⟩
  obtain ⟨q, hq⟩ := hq
  refine ⟨q, fun f hf => (hq f hf).2, ?_⟩
  intro t0 times waves hwaves
  unfold templateSed
  have hz : (times.map fun _ => waves.map fun _ => (0 : ℝ)) = (times.map (· - t0)).map fun t => waves.map ((fun _ _ => (0 : ℝ)) t) := by
    rw [List.map_map]; rfl
  rw [hz, sedLoop_spec m (times.map (· - t0)) waves v q m.data.curves.keys (fun _ _ => 0)]
  · rw [List.map_map]
    congr 1
    apply List.map_congr_left
    intro t _
    apply List.map_congr_left
    intro w _
    dsimp only
    rw [zero_add]
  · intro f hf
    refine ⟨_, (hq f (hs f hf)).1, ?_, hv f hf _⟩
    unfold sedAtWaves
    apply List.map_congr_left
    intro w hwm
    rw [hw]
    exact interp_grid s1 _ (hwaves w hwm)

/-- The bandflux of the spectrum: every filter's value counts with a fixed coefficient, its own with one. -/
theorem mixture {g : PassbandGroup ℝ} (hr : Reachable g) (hsep : Separated g) {m : TemplateModel} {fs : List Name} (hw : m.allWaves = g.waves)
    (hn : fs.Nodup) (hb : createSedBasis g fs = .ok m.basis) (v : Name → ℝ → ℝ) (hs : ∀ f ∈ m.data.curves.keys, f ∈ fs)
    (hv : ∀ f ∈ m.data.curves.keys, ∀ times, lcEval m.data times f = .ok (times.map (v f))) :
    ∃ c : Name → Name → ℝ, (∀ f ∈ fs, c f f = 1) ∧
      (NoLeak g fs → ∀ f ∈ fs, ∀ f' ∈ fs, f' ≠ f → c f f' = 0) ∧
      (∀ f ∈ fs, ∃ pb, g.getItem f = .ok pb ∧ ∀ f' ∈ fs, ∃ a, 0 < a ∧
        c f f' = pb.integrate (onGrid (ind g fs f') pb.waves) / a) ∧
      ∀ (t0 : ℝ) (times : List ℝ), times ≠ [] → ∀ f ∈ fs, ∃ pb sed gsed, g.getItem f = .ok pb ∧
        templateSed m t0 times pb.waves = .ok sed ∧ templateSed m t0 times g.waves = .ok gsed ∧
        pb.bandflux sed = .ok (times.map fun t => (m.data.curves.keys.map fun f' => v f' (t - t0) * c f f').sum) ∧
        g.bandflux gsed f = .ok (times.map fun t => (m.data.curves.keys.map fun f' => v f' (t - t0) * c f f').sum) := by
  obtain ⟨q, h1, h2⟩ := sed_spec hr hsep hw hn hb v hs hv
  have hpb : ∀ f ∈ fs, ∃ pb, g.getItem f = .ok pb := fun f hf => by
    obtain ⟨pb, _, h, _⟩ := h1 f hf
    exact ⟨pb, h⟩
  let P : Name → Passband ℝ := fun f => match g.getItem f with
    | .ok pb => pb
    | .error _ => ⟨[], [], [], [], [], none⟩
  have hP : ∀ f pb, g.getItem f = .ok pb → P f = pb := fun f pb h => by simp only [P, h]
  refine ⟨fun f f' => (P f).integrate (onGrid (q f') (P f).waves), ?_, ?_, ?_, ?_⟩
  · intro f hf
    obtain ⟨pb, c, g1, g2, g3, g4⟩ := h1 f hf
    dsimp only
    rw [hP f pb g1]
    have hu := (getItem_member hr g1).2.2
    have : q f = fun w => ind g fs f w / c := funext g4
    rw [this, integrate_scale pb hu.2.2.2, ← g3]
    exact div_self g2.ne'
  · intro hnl f hf f' hf' hne
    obtain ⟨pb, c, g1, g2, g3, g4⟩ := h1 f hf
    obtain ⟨pb', c', k1, k2, k3, k4⟩ := h1 f' hf'
    dsimp only
    rw [hP f pb g1]
    have hu := (getItem_member hr g1).2.2
    rw [← integrate_zero pb hu.2.2.2]
    apply integrate_congr pb hu.2.2.2
    intro w T hwT
    rw [k4, zero_mul]
    by_cases ho : Only g fs f' w
    · have hT : T = 0 := by
        apply hnl f hf f' hf' hne pb g1 w T hwT ?_ ho.1
        by_contra hc
        exact ho.2 f hf (fun e => hne e.symm) ⟨pb, T, g1, hwT, not_le.1 hc⟩
      rw [hT, mul_zero]
    · unfold ind
      rw [if_neg ho, zero_div, zero_mul]
  · intro f hf
    obtain ⟨pb, c, g1, g2, g3, g4⟩ := h1 f hf
    refine ⟨pb, g1, fun f' hf' => ?_⟩
    obtain ⟨pb', c', k1, k2, k3, k4⟩ := h1 f' hf'
    have hu := (getItem_member hr g1).2.2
    refine ⟨c', k2, ?_⟩
    dsimp only
    rw [hP f pb g1]
    have : q f' = fun w => ind g fs f' w / c' := funext k4
    rw [this, integrate_scale pb hu.2.2.2]
  · intro t0 times ht f hf
    obtain ⟨pb, g1⟩ := hpb f hf
    obtain ⟨m1, m2, hu⟩ := getItem_member hr g1
    obtain ⟨s1, s2, s3, _⟩ := C29_shared_grid_partial g hr hsep
    have hsub : ∀ w ∈ pb.waves, w ∈ g.waves := fun w hw => (s2 w).2 ⟨pb, m2, hw⟩
    have hint : ∀ t, pb.integrate (onGrid (fun w => (m.data.curves.keys.map fun f => v f (t - t0) * q f w).sum) pb.waves) =
        (m.data.curves.keys.map fun f' => v f' (t - t0) * (P f).integrate (onGrid (q f') (P f).waves)).sum := by
      intro t
      rw [integrate_sum pb hu.2.2.2 (fun f => v f (t - t0)) q, hP f pb g1]
    have hband : pb.bandflux (times.map fun t => pb.waves.map fun w => (m.data.curves.keys.map fun f => v f (t - t0) * q f w).sum) =
        .ok (times.map fun t => (m.data.curves.keys.map fun f' => v f' (t - t0) * (P f).integrate (onGrid (q f') (P f).waves)).sum) := by
      cases times with
      | nil => exact absurd rfl ht
      | cons t ts =>
        unfold Passband.bandflux
        rw [List.map_cons]
        dsimp only
        rw [if_neg (by simp [hu.2.1]), if_neg (by simp)]
        rw [← List.map_cons (f := fun t => pb.waves.map fun w => (m.data.curves.keys.map fun f => v f (t - t0) * q f w).sum), List.map_map]
        congr 1
        apply List.map_congr_left
        intro t _
        exact hint t
    refine ⟨pb, _, _, g1, h2 t0 times pb.waves hsub, h2 t0 times g.waves (fun w hw => hw), hband, ?_⟩
    rw [((C30_bandflux_partial g hr f _).1 pb g1).1]
    have hgb := s3 pb.fullName pb m1 (times.map fun t w => (m.data.curves.keys.map fun f => v f (t - t0) * q f w).sum)
    rw [List.map_map, List.map_map] at hgb
    exact hgb.trans hband

/-- Weights that are one for `f` and zero for the other filters. -/
theorem weight_sum {fs : List Name} {f : Name} (v : Name → ℝ) {c : Name → ℝ} (h1 : c f = 1) (h0 : ∀ x ∈ fs, x ≠ f → c x = 0) :
    ∀ l : List Name, l.Nodup → (∀ x ∈ l, x ∈ fs) → (l.map fun f' => v f' * c f').sum = if f ∈ l then v f else 0 := by
  intro l
  induction l with
  | nil => intro _ _; simp
  | cons x l ih =>
    intro hnd hl
    have hnd' := List.nodup_cons.1 hnd
    rw [List.map_cons, List.sum_cons, ih hnd'.2 (fun y hy => hl y (List.mem_cons_of_mem _ hy))]
    by_cases hx : x = f
    · subst hx
      rw [if_neg hnd'.1, if_pos (by simp), h1, mul_one, add_zero]
    · rw [h0 x (hl x (by simp)) hx, mul_zero, zero_add]
      congr 1
      rw [List.mem_cons]
      simp [Ne.symm hx]

/-- C50 (through the spectrum), when no filter faintly lets through a wavelength significant in another. For every template set, every
reachable passband group with separated wavelengths and every list of times: if the model can be constructed, then for each of its
filters the model's spectrum, sampled on that filter's wavelengths and integrated through its passband, or sampled on the group's grid
and integrated by the group, is the template's value in that filter at every time (shifted by `t0`). Missing: groups that are not
separated (C29), and filters leaking into each other below the significance threshold (`C50_leak_counterexample`). -/
theorem C50_sed_partial (source : LcSource) (lcT0 : ℝ) (periodic : Bool) (baseline : Option (Dict Name ℝ)) (g : PassbandGroup ℝ)
    (t0Given : Bool) (m : TemplateModel) (hp : ProperSource source) (hr : Reachable g) (hsep : Separated g)
    (hm : templateInit source lcT0 periodic baseline g t0Given = .ok m) (hnl : NoLeak g m.data.curves.keys)
    (t0 : ℝ) (times : List ℝ) (ht : times ≠ []) (f : Name) (hf : f ∈ m.data.curves.keys) :
    ∃ pb sed gsed vals, g.getItem f = .ok pb ∧ lcEval m.data (times.map (· - t0)) f = .ok vals ∧
      templateSed m t0 times pb.waves = .ok sed ∧ pb.bandflux sed = .ok vals ∧
      templateSed m t0 times g.waves = .ok gsed ∧ g.bandflux gsed f = .ok vals := by
  obtain ⟨_, hw, hn, _, _, hb, v, hv⟩ := init_facts hp hm
  obtain ⟨c, c1, c2, _, c4⟩ := mixture hr hsep hw hn hb v (fun _ h => h) hv
  obtain ⟨pb, sed, gsed, e1, e2, e3, e4, e5⟩ := c4 t0 times ht f hf
  have hsum : ∀ t, (m.data.curves.keys.map fun f' => v f' (t - t0) * c f f').sum = v f (t - t0) := by
    intro t
    rw [weight_sum (fun f' => v f' (t - t0)) (c1 f hf) (fun x hx hne => c2 hnl f hf x hx hne) _ hn (fun x hx => hx), if_pos hf]
  have hsum' : (times.map fun t => (m.data.curves.keys.map fun f' => v f' (t - t0) * c f f').sum) = (times.map (· - t0)).map (v f) := by
    rw [List.map_map]
    exact List.map_congr_left fun t _ => hsum t
  rw [hsum'] at e4 e5
  exact ⟨pb, sed, gsed, _, e1, hv f hf _, e2, e4, e3, e5⟩

/-- C50 (through the spectrum, in general). Whatever the overlaps, the bandfluxes of the model's spectrum are the template's values
weighted by coefficients that depend on the passbands only, a filter's own value having weight one. -/
theorem C50_mixture (source : LcSource) (lcT0 : ℝ) (periodic : Bool) (baseline : Option (Dict Name ℝ)) (g : PassbandGroup ℝ)
    (t0Given : Bool) (m : TemplateModel) (hp : ProperSource source) (hr : Reachable g) (hsep : Separated g)
    (hm : templateInit source lcT0 periodic baseline g t0Given = .ok m) :
    ∃ c : Name → Name → ℝ, (∀ f ∈ m.data.curves.keys, c f f = 1) ∧
      ∀ (t0 t : ℝ) (f : Name), f ∈ m.data.curves.keys → ∃ pb sed, ∃ val : Name → ℝ, g.getItem f = .ok pb ∧
        (∀ f' ∈ m.data.curves.keys, lcEval m.data [t - t0] f' = .ok [val f']) ∧
        templateSed m t0 [t] pb.waves = .ok sed ∧
        pb.bandflux sed = .ok [(m.data.curves.keys.map fun f' => val f' * c f f').sum] := by
  obtain ⟨_, hw, hn, _, _, hb, v, hv⟩ := init_facts hp hm
  obtain ⟨c, c1, c2, _, c4⟩ := mixture hr hsep hw hn hb v (fun _ h => h) hv
  refine ⟨c, c1, ?_⟩
  intro t0 t f hf
  obtain ⟨pb, sed, gsed, e1, e2, e3, e4, e5⟩ := c4 t0 [t] (by simp) f hf
  exact ⟨pb, sed, fun f' => v f' (t - t0), e1, fun f' hf' => hv f' hf' _, e2, e4⟩

/-- The bandfluxes of a set of curves whose values are given by `v`. -/
theorem bandflux_spec {d : LcData} (hn : d.curves.keys.Nodup) {v : Name → ℝ → ℝ}
    (hv : ∀ f ∈ d.curves.keys, ∀ times, lcEval d times f = .ok (times.map (v f))) (t0 : ℝ) (times : List ℝ) (filters : List Name)
    (hlen : filters.length = times.length) :
    ((∃ f ∈ filters, f ∉ d.curves.keys) → templateBandflux d t0 times filters = .error .valueError) ∧
    ((∀ f ∈ filters, f ∈ d.curves.keys) → ∃ out, templateBandflux d t0 times filters = .ok out ∧ out.length = times.length ∧
      ∀ (i : Nat) (t : ℝ) (f : Name), times[i]? = some t → filters[i]? = some f →
        ∃ x, out[i]? = some x ∧ lcEval d [t - t0] f = .ok [x]) := by
  have key : ∀ (fs : List Name) (ts : List ℝ) (out : List ℝ), fs.Nodup → (∀ f ∈ fs, f ∈ d.curves.keys) → filters.length = ts.length →
      out.length = ts.length → ∃ res, templateFluxLoop d ts filters fs out = .ok res ∧ res.length = ts.length ∧
        ∀ (i : Nat) t f, ts[i]? = some t → filters[i]? = some f →
          (f ∈ fs → res[i]? = some (v f t)) ∧ (f ∉ fs → res[i]? = out[i]?) := by
    intro fs
    induction fs with
    | nil => intro ts out _ _ _ h; exact ⟨out, rfl, h, fun i t f _ _ => ⟨by simp, fun _ => rfl⟩⟩
    | cons f fs ih =>
      intro ts out hnd hsub hl ho
      have hnd' := List.nodup_cons.1 hnd
      have hsc := BandfluxProps.scatter_zip (fun x => decide (x = f)) (v f) filters ts out hl ho
      have hlen2 : (scatter (filters.map fun x => decide (x = f)) out ((gather (filters.map fun x => decide (x = f)) ts).map (v f))).length = ts.length := by
        rw [hsc]; simp [hl, ho]
      obtain ⟨res, r1, r2, r3⟩ := ih ts _ hnd'.2 (fun x hx => hsub x (List.mem_cons_of_mem _ hx)) hl hlen2
      refine ⟨res, ?_, r2, ?_⟩
      · unfold templateFluxLoop
        rw [hv f (hsub f (by simp))]
        exact r1
      · intro i t f' hti hfi
        obtain ⟨a1, a2⟩ := r3 i t f' hti hfi
        have hout : (scatter (filters.map fun x => decide (x = f)) out ((gather (filters.map fun x => decide (x = f)) ts).map (v f)))[i]? =
            if f' = f then some (v f t) else out[i]? := by
          obtain ⟨x, hx⟩ : ∃ x, out[i]? = some x := by
            have : i < out.length := by
              rw [ho]
              exact (List.getElem?_eq_some_iff.1 hti).1
            exact ⟨_, List.getElem?_eq_getElem this⟩
          rw [hsc, List.getElem?_zipWith, BandfluxProps.zip_get hfi hti, hx]
          dsimp only
          by_cases he : f' = f
          · rw [if_pos he, if_pos (by simpa using he)]
          · rw [if_neg he, if_neg (by simpa using he)]
        constructor
        · intro hm'
          by_cases he : f' ∈ fs
          · exact a1 he
          · rw [a2 he, hout]
            rcases List.mem_cons.1 hm' with e | e
            · rw [if_pos e, e]
            · exact absurd e he
        · intro hm'
          rw [List.mem_cons, not_or] at hm'
          rw [a2 hm'.2, hout, if_neg hm'.1]
  constructor
  · rintro ⟨f, hf, hnf⟩
    unfold templateBandflux
    rw [if_pos]
    intro hall
    exact hnf (hall f ((BandfluxProps.mem_npUnique _ _).2 hf))
  · intro hall
    unfold templateBandflux
    rw [if_neg (not_not.2 fun f hf => hall f ((BandfluxProps.mem_npUnique _ _).1 hf))]
    obtain ⟨res, r1, r2, r3⟩ := key d.curves.keys (times.map (· - t0)) (times.map fun _ => 0) hn (fun f hf => hf)
      (by simpa using hlen) (by simp)
    refine ⟨res, r1, by simpa using r2, ?_⟩
    intro i t f hti hfi
    have hmem := hall f (List.mem_of_getElem? hfi)
    refine ⟨v f (t - t0), (r3 i (t - t0) f (by rw [List.getElem?_map, hti]; rfl) hfi).1 hmem, ?_⟩
    exact hv f hmem _

/-- C50 (bandfluxes). For every constructed model: `compute_bandflux` of times and filters, one filter per time, raises ValueError when
one of the filters has no curve; otherwise each entry is the template's value in its filter at its own time shifted by `t0`. -/
theorem C50_bandflux (source : LcSource) (lcT0 : ℝ) (periodic : Bool) (baseline : Option (Dict Name ℝ)) (g : PassbandGroup ℝ)
    (t0Given : Bool) (m : TemplateModel) (hp : ProperSource source)
    (hm : templateInit source lcT0 periodic baseline g t0Given = .ok m) (t0 : ℝ) (times : List ℝ) (filters : List Name)
    (hlen : filters.length = times.length) :
    ((∃ f ∈ filters, f ∉ m.data.curves.keys) → templateBandflux m.data t0 times filters = .error .valueError) ∧
    ((∀ f ∈ filters, f ∈ m.data.curves.keys) → ∃ out, templateBandflux m.data t0 times filters = .ok out ∧ out.length = times.length ∧
      ∀ (i : Nat) (t : ℝ) (f : Name), times[i]? = some t → filters[i]? = some f →
        ∃ x, out[i]? = some x ∧ lcEval m.data [t - t0] f = .ok [x]) := by
  obtain ⟨_, _, hn, _, _, _, v, hv⟩ := init_facts hp hm
  exact bandflux_spec hn hv t0 times filters hlen

/-- C50 (rejected). A model is not constructed when one of its filters has no passband in the group, nor without `t0`; ValueError is
raised for the former. -/
theorem C50_rejected (source : LcSource) (lcT0 : ℝ) (periodic : Bool) (baseline : Option (Dict Name ℝ)) (g : PassbandGroup ℝ)
    (hp : ProperSource source) :
    (∀ d, lcInit source lcT0 periodic false baseline = .ok d → (∃ f ∈ d.curves.keys, g.contains f = false) → ∀ t0Given,
      templateInit source lcT0 periodic baseline g t0Given = .error .valueError) ∧
    (∀ m, templateInit source lcT0 periodic baseline g false ≠ .ok m) := by
  constructor
  · intro d hd hf t0Given
    obtain ⟨f, h1, h2⟩ := hf
    unfold templateInit
    rw [hd]
    dsimp only
    have : templateBase g d.curves.keys t0Given = .error .valueError := by
      unfold templateBase
      rw [if_pos]
      intro h
      rw [h f h1] at h2
      cases h2
    rw [this]
  · intro m hm
    obtain ⟨_, _, _, _, h, _⟩ := init_facts hp hm
    cases h

/-! ## Which models are constructed -/

open Classical in
theorem marks_ok {g : PassbandGroup ℝ} (hr : Reachable g) (hsep : Separated g) {f : Name} {pb : Passband ℝ} (hg : g.getItem f = .ok pb) :
    sedMarks g f = .ok (g.waves.map fun w => decide (Significant g f w)) := by
  have hok : ∃ row, sedMarks g f = .ok row := by
    unfold sedMarks
    rw [hg]
    dsimp only
    obtain ⟨hm1, hm2, hu⟩ := getItem_member hr hg
    obtain ⟨s1, s2, _, _⟩ := C29_shared_grid_partial g hr hsep
    rw [if_pos]
    · exact ⟨_, rfl⟩
    · intro i hi
      obtain ⟨w, hw, rfl⟩ := List.mem_map.1 hi
      obtain ⟨T, h1, h2⟩ := (mem_sigWaves hu.2.2.2 w).1 hw
      have hwm : w ∈ g.waves := (s2 w).2 ⟨pb, hm2, by rw [hu.2.2.2]; exact List.mem_map.2 ⟨_, h1, rfl⟩⟩
      exact (List.getElem?_eq_some_iff.1 (searchLeft_mem g.waves w s1 hwm)).1
  obtain ⟨row, h⟩ := hok
  rw [h, (marks_spec hr hsep h).2]

open Classical in
theorem markAll_ok {g : PassbandGroup ℝ} (hr : Reachable g) (hsep : Separated g) : ∀ {fs : List Name}, (∀ f ∈ fs, ∃ pb, g.getItem f = .ok pb) →
    sedMarkAll g fs = .ok (fs.map fun f => g.waves.map fun w => decide (Significant g f w))
  | [], _ => rfl
  | f :: fs, h => by
    obtain ⟨pb, hg⟩ := h f (by simp)
    unfold sedMarkAll
    rw [marks_ok hr hsep hg]
    dsimp only
    rw [markAll_ok hr hsep (fun x hx => h x (List.mem_cons_of_mem _ hx))]
    rfl

open Classical in
theorem basisOne_ok {g : PassbandGroup ℝ} (hr : Reachable g) (hsep : Separated g) {fs : List Name} (hn : fs.Nodup) {f : Name} (hf : f ∈ fs)
    {pb : Passband ℝ} (hg : g.getItem f = .ok pb) (hpos : 0 < pb.integrate (onGrid (ind g fs f) pb.waves)) :
    ∃ b, sedBasisOne g (fs.map fun f => g.waves.map fun w => decide (Significant g f w)) f (g.waves.map fun w => decide (Significant g f w)) = .ok b := by
  unfold sedBasisOne
  rw [valid_spec hn hf]
  have ho : sedOnes (g.waves.map fun w => decide (Only g fs f w)) = onGrid (ind g fs f) g.waves := by
    unfold sedOnes onGrid ind
    rw [List.map_map]
    apply List.map_congr_left
    intro w _
    by_cases hw : Only g fs f w
    · simp [hw]
    · simp [hw]
  obtain ⟨hm1, hm2, hu⟩ := getItem_member hr hg
  obtain ⟨s1, s2, _, _⟩ := C29_shared_grid_partial g hr hsep
  rw [if_neg, ho, bandflux_one hr hsep hg]
  · dsimp only [List.head?_cons]
    rw [if_neg (not_le.2 hpos)]
    exact ⟨_, rfl⟩
  · intro hall
    rw [List.all_eq_true] at hall
    have hz : pb.integrate (onGrid (ind g fs f) pb.waves) = 0 := by
      rw [← integrate_zero pb hu.2.2.2]
      apply integrate_congr pb hu.2.2.2
      intro w T hwT
      have hwm : w ∈ g.waves := (s2 w).2 ⟨pb, hm2, by rw [hu.2.2.2]; exact List.mem_map.2 ⟨_, hwT, rfl⟩⟩
      have := hall _ (List.mem_map.2 ⟨w, hwm, rfl⟩)
      unfold ind
      rw [if_neg (by simpa using this)]
    rw [hz] at hpos
    exact lt_irrefl _ hpos

open Classical in
theorem basis_ok {g : PassbandGroup ℝ} (hr : Reachable g) (hsep : Separated g) {fs : List Name} (hn : fs.Nodup)
    (hall : ∀ f ∈ fs, ∃ pb, g.getItem f = .ok pb ∧ 0 < pb.integrate (onGrid (ind g fs f) pb.waves)) :
    ∃ basis, createSedBasis g fs = .ok basis := by
  unfold createSedBasis
  rw [markAll_ok hr hsep (fun f hf => (hall f hf).imp fun _ h => h.1)]
  dsimp only
  have key : ∀ sub : List Name, (∀ f ∈ sub, f ∈ fs) → ∃ basis,
      sedBasisLoop g (fs.map fun f => g.waves.map fun w => decide (Significant g f w))
        (List.zip sub (sub.map fun f => g.waves.map fun w => decide (Significant g f w))) = .ok basis := by
    intro sub
    induction sub with
    | nil => intro _; exact ⟨[], rfl⟩
    | cons f sub ih =>
      intro hs
      obtain ⟨pb, h1, h2⟩ := hall f (hs f (by simp))
      obtain ⟨b, hb⟩ := basisOne_ok hr hsep hn (hs f (by simp)) h1 h2
      obtain ⟨d, hd⟩ := ih (fun x hx => hs x (List.mem_cons_of_mem _ hx))
      rw [List.map_cons, List.zip_cons_cons]
      unfold sedBasisLoop
      rw [hb]
      dsimp only
      rw [hd]
      exact ⟨_, rfl⟩
  exact key fs (fun f hf => hf)

open Classical in
/-- C50 (constructed). For a reachable group with separated wavelengths, a template set whose data are accepted is made into a model
exactly when `t0` is given, every filter has one passband in the group, and every filter passes a positive flux in the wavelengths
significant to it alone. -/
theorem C50_constructed (source : LcSource) (lcT0 : ℝ) (periodic : Bool) (baseline : Option (Dict Name ℝ)) (g : PassbandGroup ℝ)
    (t0Given : Bool) (hp : ProperSource source) (hr : Reachable g) (hsep : Separated g) (d : LcData)
    (hd : lcInit source lcT0 periodic false baseline = .ok d) :
    (∃ m, templateInit source lcT0 periodic baseline g t0Given = .ok m) ↔
      t0Given = true ∧ ∀ f ∈ d.curves.keys, ∃ pb, g.getItem f = .ok pb ∧
        0 < pb.integrate (onGrid (ind g d.curves.keys f) pb.waves) := by
  have hkeys := (init_data hd hp).1
  constructor
  · rintro ⟨m, hm⟩
    obtain ⟨h1, h2, h3, h4, h5, h6, _⟩ := init_facts hp hm
    rw [hd] at h1
    injection h1 with h1
    subst h1
    refine ⟨h5, fun f hf => ?_⟩
    obtain ⟨b, _, pb, k1, k2, _⟩ := basis_spec hr hsep hkeys h6 f hf
    exact ⟨pb, k1, k2⟩
  · rintro ⟨ht, hall⟩
    obtain ⟨basis, hb⟩ := basis_ok hr hsep hkeys hall
    have hcont : ∀ f ∈ d.curves.keys, g.contains f = true := by
      intro f hf
      obtain ⟨pb, h1, _⟩ := hall f hf
      by_contra hc
      have := (C30_lookup g hr f).2.2.1
      obtain ⟨hm1, hm2, _⟩ := getItem_member hr h1
      have h0 : g.passbands.get? f = none := by
        cases hx : g.passbands.get? f with
        | none => rfl
        | some q => exact absurd (by simp [PassbandGroup.contains, Dict.has, hx]) hc
      have h2 : g.filterToName.get? f = none := by
        cases hx : g.filterToName.get? f with
        | none => rfl
        | some q => exact absurd (by simp [PassbandGroup.contains, Dict.has, hx]) hc
      unfold PassbandGroup.getItem at h1
      rw [h0, h2] at h1
      cases h1
    refine ⟨⟨d, g.waves, basis⟩, ?_⟩
    unfold templateInit
    rw [hd]
    dsimp only
    have : templateBase g d.curves.keys t0Given = .ok basis := by
      unfold templateBase
      rw [if_neg (not_not.2 hcont), hb]
      dsimp only
      rw [if_pos ht]
    rw [this]

end LCL.TemplateSedProps
