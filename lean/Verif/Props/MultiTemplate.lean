import Verif.Spec.MultiTemplate
import Verif.Props.TemplateSed2
import Verif.Props.LclibTemplate
import Verif.Props.Samplers2

/-!
# C99: one of several templates
-/

namespace LCL.MultiTemplateProps
open LCL LCL.TemplateSedSpec LCL.TemplateSedLemmas LCL.PassbandGroupProps LCL.TemplateLemmas LCL.PassbandLemmas LCL.PassbandProps
open LCL.TemplateSedProps LCL.MultiTemplateSpec LCL.LclibSpec LCL.LclibTemplateProps

theorem made_facts {d : LcData} (h : Made d) : d.curves.keys.Nodup ∧
    ∃ v : Name → ℝ → ℝ, ∀ f ∈ d.curves.keys, ∀ times, lcEval d times f = .ok (times.map (v f)) := by
  obtain ⟨s, t0, p, mg, b, hs, hi⟩ := h
  obtain ⟨k1, k2⟩ := init_data hi hs
  refine ⟨k1, fun f => if hf : f ∈ d.curves.keys then (k2 f hf).choose else fun _ => 0, fun f hf times => ?_⟩
  dsimp only
  rw [dif_pos hf]
  exact (k2 f hf).choose_spec times

theorem mem_multiFilters {data : List LcData} {f : Name} : f ∈ multiFilters data ↔ AnyHas data f := by
  unfold multiFilters AnyHas Has
  rw [List.mem_dedup, List.mem_flatMap]

theorem multi_facts {data : List LcData} {g : PassbandGroup ℝ} {b : Bool} {m : MultiTemplate} (h : multiInit data g b = .ok m) :
    m.data = data ∧ m.allWaves = g.waves ∧ createSedBasis g (multiFilters data) = .ok m.basis ∧ b = true ∧
    ∀ f, AnyHas data f → g.contains f = true := by
  unfold multiInit templateBase at h
  split at h
  · cases h
  · rename_i basis hb
    split at hb
    · cases hb
    · rename_i hall
      split at hb
      · cases hb
      · rename_i bs hbs
        split at hb
        · rename_i ht
          cases h; cases hb
          exact ⟨rfl, rfl, hbs, ht, fun f hf => (not_not.1 hall) f (mem_multiFilters.2 hf)⟩
        · cases hb

theorem pyIndex_nat {α : Type} {l : List α} {k : Nat} {x : α} (h : l[k]? = some x) : pyIndex l (k : Int) = .ok x := by
  unfold pyIndex
  rw [if_neg (by omega), Int.toNat_natCast, h]
  dsimp only
  rw [if_neg (by omega)]

theorem pyIndex_beyond {α : Type} {l : List α} {k : Nat} (h : l.length ≤ k) : pyIndex l (k : Int) = .error .indexError := by
  unfold pyIndex
  rw [if_neg (by omega), Int.toNat_natCast, List.getElem?_eq_none h]

/-- C99: bandfluxes. In a state whose `selected_lightcurve` is `k` the model's bandfluxes are those of the `k`-th set of
curves alone: each entry is its value in the filter at the time since `t0`; a filter it has no curve for raises
ValueError, a number beyond the list IndexError. -/
theorem C99_bandflux {data : List LcData} {g : PassbandGroup ℝ} {m : MultiTemplate} (hmade : ∀ d ∈ data, Made d)
    (hm : multiInit data g true = .ok m) (k : Nat) (t0 : ℝ) (times : List ℝ) (filters : List Name) (hlen : filters.length = times.length) :
    (∀ d, data[k]? = some d →
      ((∃ f ∈ filters, ¬ Has d f) → multiBandflux m k t0 times filters = .error .valueError) ∧
      ((∀ f ∈ filters, Has d f) → ∃ out, multiBandflux m k t0 times filters = .ok out ∧ out.length = times.length ∧
        ∀ (i : Nat) (t : ℝ) (f : Name), times[i]? = some t → filters[i]? = some f →
          ∃ x, out[i]? = some x ∧ lcEval d [t - t0] f = .ok [x])) ∧
    (data.length ≤ k → multiBandflux m k t0 times filters = .error .indexError) := by
  have hd := (multi_facts hm).1
  refine ⟨fun d hk => ?_, fun hk => ?_⟩
  · obtain ⟨hn, v, hv⟩ := made_facts (hmade d (List.mem_of_getElem? hk))
    unfold multiBandflux
    rw [hd, pyIndex_nat hk]
    exact bandflux_spec hn hv t0 times filters hlen
  · unfold multiBandflux
    rw [hd, pyIndex_beyond hk]

/-- C99: the spectrum, when no filter of the model faintly lets through a wavelength significant in another. For the
selected set of curves and every filter of the model, the spectrum sampled on the filter's wavelengths and integrated
through its passband, or sampled on the group's grid and integrated by the group, gives the curve's value if the set
has a curve in the filter and zero if only other sets have one. Missing: as in `C50_sed_partial`; and for a filter
only other sets have, the bandfluxes of `C99_bandflux` raise instead of giving the zero (`C99_other_filter_counterexample`). -/
theorem C99_sed_partial {data : List LcData} {g : PassbandGroup ℝ} {m : MultiTemplate} (hmade : ∀ d ∈ data, Made d)
    (hr : Reachable g) (hsep : Separated g) (hm : multiInit data g true = .ok m) (hnl : NoLeaks g data)
    (k : Nat) (d : LcData) (hk : data[k]? = some d) (t0 : ℝ) (times : List ℝ) (ht : times ≠ []) (f : Name) (hf : AnyHas data f) :
    ∃ pb sed gsed vals, g.getItem f = .ok pb ∧
      ((Has d f ∧ lcEval d (times.map (· - t0)) f = .ok vals) ∨ (¬ Has d f ∧ vals = times.map fun _ => 0)) ∧
      multiSed m k t0 times pb.waves = .ok sed ∧ pb.bandflux sed = .ok vals ∧
      multiSed m k t0 times g.waves = .ok gsed ∧ g.bandflux gsed f = .ok vals := by
  obtain ⟨hd, hw, hb, -, -⟩ := multi_facts hm
  obtain ⟨hn, v, hv⟩ := made_facts (hmade d (List.mem_of_getElem? hk))
  have hs : ∀ f ∈ d.curves.keys, f ∈ multiFilters data := fun f h => mem_multiFilters.2 ⟨d, List.mem_of_getElem? hk, h⟩
  have hf' := mem_multiFilters.2 hf
  obtain ⟨c, c1, c2, -, c4⟩ := mixture (m := ⟨d, m.allWaves, m.basis⟩) hr hsep hw (List.nodup_dedup _) hb v hs hv
  have hnl' := hnl (multiFilters data) fun f h => mem_multiFilters.1 h
  obtain ⟨pb, sed, gsed, e1, e2, e3, e4, e5⟩ := c4 t0 times ht f hf'
  have hsum : (times.map fun t => (d.curves.keys.map fun f' => v f' (t - t0) * c f f').sum) =
      times.map fun t => if f ∈ d.curves.keys then v f (t - t0) else 0 := by
    apply List.map_congr_left
    intro t _
    exact weight_sum (fun f' => v f' (t - t0)) (c1 f hf') (fun x hx hne => c2 hnl' f hf' x hx hne) _ hn hs
  rw [hsum] at e4 e5
  have hms : ∀ ws, multiSed m k t0 times ws = templateSed ⟨d, m.allWaves, m.basis⟩ t0 times ws := by
    intro ws
    unfold multiSed
    rw [hd, pyIndex_nat hk]
  refine ⟨pb, sed, gsed, _, e1, ?_, (hms _).trans e2, e4, (hms _).trans e3, e5⟩
  by_cases h : f ∈ d.curves.keys
  · refine .inl ⟨h, ?_⟩
    rw [hv f h, List.map_map]
    simp only [h, if_true]
    rfl
  · refine .inr ⟨h, ?_⟩
    simp only [h, if_false]

theorem made_ends {d : LcData} (h : Made d) (f : Name) (lc : List (ℝ × ℝ)) (hf : d.curves.get? f = some lc) :
    ∃ p ∈ lc, ∃ q ∈ lc, d.minTimes.get? f = some p.1 ∧ d.maxTimes.get? f = some q.1 := by
  obtain ⟨s, t0, pr, mg, b, hs, hi⟩ := h
  have fin : ∃ curves t0 period, lcFinish curves t0 period mg b = .ok d := by
    unfold lcInit at hi
    split at hi
    · cases hi
    · split at hi
      · cases hi
      · split at hi
        · split at hi
          · cases hi
          · exact ⟨_, _, _, hi⟩
        · exact ⟨_, _, _, hi⟩
  obtain ⟨curves, t0', period, hfin⟩ := fin
  obtain ⟨e1, _, _, e4, e5, e6, _⟩ := finish_spec hfin
  rw [e1] at hf
  have hne : lc ≠ [] := e6 _ (Dict.mem_of_get? hf)
  refine ⟨lc.head hne, List.head_mem _, lc.getLast hne, List.getLast_mem _, ?_, ?_⟩
  · rw [e4, hf, Option.bind_some, List.head?_eq_some_head hne]; rfl
  · rw [e5, hf, Option.bind_some, List.getLast?_eq_some_getLast hne]; rfl

/-- C99: the parameter `baseline_f` of a state whose `selected_lightcurve` is `k` is the flux of the `k`-th set of curves
outside its observations; zero if it has none in this filter. -/
theorem C99_baseline {data : List LcData} {g : PassbandGroup ℝ} {m : MultiTemplate} (hmade : ∀ d ∈ data, Made d)
    (hm : multiInit data g true = .ok m) (k : Nat) (d : LcData) (hk : data[k]? = some d) (f : Name) :
    ∃ b, selectValue ((multiBaselines m f).map Val.scalar) (.one k) = .ok (.scalar b) ∧
      (∀ lc, d.curves.get? f = some lc → d.period = none → ∀ t : ℝ, ((∀ p ∈ lc, t < p.1) ∨ (∀ p ∈ lc, p.1 < t)) →
        lcEval d [t] f = .ok [b]) ∧
      (d.baseline.get? f = none → b = 0) := by
  have hd := (multi_facts hm).1
  refine ⟨(d.baseline.get? f).getD 0, ?_, ?_, fun h => by rw [h]; rfl⟩
  · have hget : ((multiBaselines m f).map Val.scalar)[k]? = some (Val.scalar ((d.baseline.get? f).getD 0)) := by
      unfold multiBaselines
      rw [List.map_map, List.getElem?_map, hd, hk]
      rfl
    have hlt : k < ((multiBaselines m f).map Val.scalar).length := (List.getElem?_eq_some_iff.1 hget).1
    obtain ⟨-, -, -, h4⟩ := SamplerProps.C22_selector ((multiBaselines m f).map Val.scalar)
    obtain ⟨opt, o1, o2⟩ := h4 k (by omega) (by omega)
    rw [Int.toNat_natCast, hget] at o1
    rw [o2, ← Option.some.inj o1]
  · intro lc hlc hper t hout
    obtain ⟨p, hp, q, hq, h1, h2⟩ := made_ends (hmade d (List.mem_of_getElem? hk)) f lc hlc
    unfold lcEval
    rw [hlc, h1, h2]
    show Except.ok [lcValue lc p.1 q.1 _ (lcWrap d.period t)] = _
    rw [hper]
    unfold lcValue
    show Except.ok [if p.1 ≤ t ∧ t ≤ q.1 then _ else _] = _
    rw [if_neg]
    rintro ⟨a, b⟩
    rcases hout with h | h
    · exact absurd (h p hp) (not_lt.2 a)
    · exact absurd (h q hq) (not_lt.2 b)

theorem wrap_keys {periodic : Bool} {ts : List ℝ} {c r : Dict Name (List (ℝ × ℝ))} (h : lclibWrap periodic ts c = .ok r) : r.keys = c.keys := by
  unfold lclibWrap at h
  split at h
  · split at h
    · cases h
    · cases h; rfl
    · cases h
      unfold Dict.keys
      rw [List.map_map]
      rfl
  · cases h; rfl

/-- The curves of an accepted LCLIB table are made by the constructor, one for each wanted filter. -/
theorem lclib_made {t : LcTable ℝ} {n : Nat} (hr : Rect t n) {forced : Option ℝ} {filters : Option (List Name)} {d : LcData}
    (h : fromLclib t forced filters = .ok d) : Made d := by
  obtain ⟨times, t0, periodic, curves, ht, hl, h0, hper, hw, hi⟩ := from_split hr h
  refine ⟨_, _, _, _, _, ?_, hi⟩
  show (Dict.keys _).Nodup
  have : Dict.keys (curves.map fun p => (p.1, (⟨2, p.2⟩ : LcInput))) = Dict.keys curves := by
    unfold Dict.keys; rw [List.map_map]; rfl
  rw [this, wrap_keys hw]
  unfold Dict.keys
  rw [List.map_map]
  have : ((fun p : Name × List (ℝ × ℝ) => p.1) ∘ fun f => (f, obsRows t n f)) = id := rfl
  rw [this, List.map_id]
  exact filters_nodup hr filters

theorem read_spec {filters : Option (List Name)} : ∀ {tables : List (LcTable ℝ)} {xs : List (Option ℝ)} {ds : List LcData},
    xs.length = tables.length → multiRead filters tables xs = .ok ds →
    ds.length = tables.length ∧ ∀ (k : Nat) t, tables[k]? = some t → ∃ x d, xs[k]? = some x ∧ ds[k]? = some d ∧ fromLclib t x filters = .ok d
  | [], _, ds, _, h => by
    unfold multiRead at h
    cases h
    exact ⟨rfl, fun k t hk => by simp at hk⟩
  | t :: ts, [], _, hl, _ => by simp at hl
  | t :: ts, x :: xs, ds, hl, h => by
    unfold multiRead at h
    split at h
    · cases h
    · rename_i d hd
      split at h
      · cases h
      · rename_i ds' hds
        cases h
        obtain ⟨h1, h2⟩ := read_spec (by simpa using hl) hds
        refine ⟨by simp [h1], fun k t' hk => ?_⟩
        cases k with
        | zero => simp at hk; subst hk; exact ⟨x, d, rfl, rfl, hd⟩
        | succ k => simpa using h2 k t' (by simpa using hk)

/-- C99: a model read from a LCLIB file has one set of curves for each table of the file, in order, each with the
reference epoch given for it (one number stands for all tables); no tables, or a list of epochs of another length,
raise ValueError. -/
theorem C99_file (tables : List (LcTable ℝ)) (hr : ∀ t ∈ tables, ∃ n, Rect t n) (g : PassbandGroup ℝ) (forced : Option (ℝ ⊕ List ℝ))
    (filters : Option (List Name)) :
    (tables = [] → ∀ b, multiFromTables tables g forced filters b = .error .valueError) ∧
    (∀ l, forced = some (.inr l) → l.length ≠ tables.length → ∀ b, multiFromTables tables g forced filters b = .error .valueError) ∧
    ∀ m b, multiFromTables tables g forced filters b = .ok m →
      ∃ data, multiInit data g true = .ok m ∧ (∀ d ∈ data, Made d) ∧ data.length = tables.length ∧
        ∀ (k : Nat) t, tables[k]? = some t → ∃ x d, data[k]? = some d ∧ fromLclib t x filters = .ok d ∧
          (forced = none → x = none) ∧ (∀ y, forced = some (.inl y) → x = some y) ∧
          (∀ l, forced = some (.inr l) → ∃ y, l[k]? = some y ∧ x = some y) := by
  refine ⟨fun h b => ?_, fun l h hl b => ?_, fun m b h => ?_⟩
  · unfold multiFromTables
    rw [if_pos h]
  · unfold multiFromTables
    split
    · rfl
    · subst h
      have : multiT0s tables.length (some (.inr l)) = .error .valueError := by
        unfold multiT0s
        dsimp only
        rw [if_neg hl]
      rw [this]
  · unfold multiFromTables at h
    split at h
    · cases h
    · split at h
      · cases h
      · rename_i xs hxs
        split at h
        · cases h
        · rename_i ds hds
          have hb : b = true := (multi_facts h).2.2.2.1
          subst hb
          have hxl : xs.length = tables.length ∧ ∀ (k : Nat) x, xs[k]? = some x → (forced = none → x = none) ∧
              (∀ y, forced = some (.inl y) → x = some y) ∧ (∀ l, forced = some (.inr l) → ∃ y, l[k]? = some y ∧ x = some y) := by
            unfold multiT0s at hxs
            split at hxs
            · cases hxs
              refine ⟨by simp, fun k x hx => ⟨fun _ => ?_, fun y hy => (by cases hy), fun l hl => (by cases hl)⟩⟩
              rw [List.getElem?_replicate] at hx
              split at hx
              · exact (Option.some.inj hx).symm
              · cases hx
            · cases hxs
              refine ⟨by simp, fun k x hx => ⟨fun hh => (by cases hh), fun y hy => ?_, fun l hl => (by cases hl)⟩⟩
              rw [List.getElem?_replicate] at hx
              split at hx
              · cases hy; exact (Option.some.inj hx).symm
              · cases hx
            · split at hxs
              · rename_i l hl
                cases hxs
                refine ⟨by simpa using hl, fun k x hx => ⟨fun hh => (by cases hh), fun y hy => (by cases hy), fun l' hl' => ?_⟩⟩
                cases hl'
                rw [List.getElem?_map] at hx
                cases hy : l[k]? with
                | none => rw [hy] at hx; cases hx
                | some y => rw [hy] at hx; exact ⟨y, rfl, (Option.some.inj hx).symm⟩
              · cases hxs
          obtain ⟨r1, r2⟩ := read_spec hxl.1 hds
          refine ⟨ds, h, ?_, r1, fun k t hk => ?_⟩
          · intro d hd
            obtain ⟨k, hk⟩ := List.mem_iff_getElem?.1 hd
            have hkl : k < tables.length := r1 ▸ (List.getElem?_eq_some_iff.1 hk).1
            obtain ⟨x, d', a1, a2, a3⟩ := r2 k _ (List.getElem?_eq_getElem hkl)
            rw [hk] at a2
            cases a2
            obtain ⟨n, hn⟩ := hr _ (List.getElem_mem hkl)
            exact lclib_made hn a3
          · obtain ⟨x, d, a1, a2, a3⟩ := r2 k t hk
            exact ⟨x, d, a2, a3, hxl.2 k x a1⟩

/-- Curves in the band `a` only. -/
noncomputable def onlyA : LcData := ⟨[(['a'], [(0 - 0, 7), (1 - 0, 7)])], 0, none, [(['a'], 0 - 0)], [(['a'], 1 - 0)], [(['a'], 0)]⟩

theorem onlyA_made : Made onlyA := by
  refine ⟨.dict [(['a'], ⟨2, [(0, 7), (1, 7)]⟩)], 0, false, false, none, ?_, ?_⟩
  · show (Dict.keys _).Nodup
    decide
  · have h1 : lcShiftOne 0 false ⟨2, [(0, 7), (1, 7)]⟩ = .ok [(0 - 0, 7), (1 - 0, 7)] := by
      unfold lcShiftOne
      rw [if_neg (by norm_num), if_neg (by norm_num [npDiff])]
      simp [lcShiftRow]
    unfold lcInit
    simp only [lcSplit, lcShiftAll, h1]
    rfl

theorem two_model : ∃ m, multiInit [onlyA, abData] (abGroup 0) true = .ok m := by
  obtain ⟨m, hm, hd⟩ := ab_model 0 le_rfl (by norm_num)
  obtain ⟨_, hw, hn, hc, _, hb, v, hv⟩ := init_facts ab_proper hm
  rw [hd] at hb hc
  have hf : multiFilters [onlyA, abData] = abData.curves.keys := by decide +kernel
  refine ⟨⟨[onlyA, abData], (abGroup 0).waves, m.basis⟩, ?_⟩
  unfold multiInit templateBase
  rw [hf, hb, if_neg (not_not.2 hc)]
  rfl

/-- C99 (the hypotheses are met, and the disagreement): a model of two sets of curves, the first in band `a` only, the
second in `a` and `b`. With the first selected, the spectrum's bandflux in `b` is zero, but asking for the bandflux
in `b` raises ValueError. -/
theorem C99_other_filter_counterexample : ∃ data g m, (∀ d ∈ data, Made d) ∧ Reachable g ∧ Separated g ∧ multiInit data g true = .ok m ∧
    NoLeaks g data ∧ AnyHas data ['b'] ∧ (∃ pb sed, g.getItem ['b'] = .ok pb ∧ multiSed m 0 0 [0] pb.waves = .ok sed ∧ pb.bandflux sed = .ok [0]) ∧
    multiBandflux m 0 0 [0] [['b']] = .error .valueError := by
  obtain ⟨m, hm⟩ := two_model
  have hmade : ∀ d ∈ [onlyA, abData], Made d := by
    intro d hd
    rcases List.mem_cons.1 hd with h | h
    · subst h; exact onlyA_made
    · rw [List.mem_singleton] at h
      subst h
      exact ⟨_, _, _, _, _, ab_proper, ab_data⟩
  have hany : ∀ f, AnyHas [onlyA, abData] f → f = ['a'] ∨ f = ['b'] := by
    intro f hf
    rw [← mem_multiFilters] at hf
    have hk : multiFilters [onlyA, abData] = [['a'], ['b']] := by decide +kernel
    rw [hk] at hf
    simpa using hf
  have hnl : NoLeaks (abGroup 0) [onlyA, abData] := by
    intro fs hfs f hf f' hf' hne pb hpb w T hwT hT hsig
    rcases hany f (hfs f hf) with h | h
    · subst h
      rcases hany f' (hfs f' hf') with h' | h'
      · exact absurd h' hne
      · subst h'
        rw [ab_sigB 0 w le_rfl (by norm_num)] at hsig
        rw [ab_getA] at hpb
        injection hpb with hpb
        subst hpb
        rcases bandA_rows hwT with h | h <;> rw [hsig] at h <;> norm_num at h
    · subst h
      rcases hany f' (hfs f' hf') with h' | h'
      · subst h'
        rw [ab_sigA] at hsig
        rw [ab_getB] at hpb
        injection hpb with hpb
        subst hpb
        rcases List.mem_cons.1 hwT with h | h
        · injection h with h1 h2
          rw [h2]; norm_num
        · rw [List.mem_singleton] at h
          injection h with h1 h2
          rw [h1] at hsig
          norm_num at hsig
      · exact absurd h' hne
  have hb : AnyHas [onlyA, abData] ['b'] := ⟨abData, by simp, by unfold Has; rw [ab_keys]; simp⟩
  have hno : ¬ Has onlyA ['b'] := by unfold Has; decide
  refine ⟨[onlyA, abData], abGroup 0, m, hmade, ab_reachable 0 le_rfl, ab_separated 0, hm, hnl, hb, ?_, ?_⟩
  · obtain ⟨pb, sed, gsed, vals, h1, h2, h3, h4, -, -⟩ := C99_sed_partial hmade (ab_reachable 0 le_rfl) (ab_separated 0) hm hnl 0 onlyA rfl 0 [0] (by simp) ['b'] hb
    rcases h2 with ⟨h2, -⟩ | ⟨-, h2⟩
    · exact absurd h2 hno
    · subst h2
      exact ⟨pb, sed, h1, h3, h4⟩
  · exact ((C99_bandflux hmade hm 0 0 [0] [['b']] rfl).1 onlyA rfl).1 ⟨['b'], by simp, hno⟩

end LCL.MultiTemplateProps
