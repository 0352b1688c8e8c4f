import Verif.Props.Simulate

/-!
# Property C40: which simulations succeed
-/

namespace LCL.SimulateProps
open LCL LCL.SimSpec LCL.ObsSpec LCL.ObsLemmas ObsTable

variable {R : Type}

/-- A survey a simulation can use: a constructed table with a radius, numeric times (and rotations) and textual filters, and a model, error and noise that
work on every selection of its rows for every state in `states`. -/
structure Usable (noise : List ℝ → List ℝ → R → Except Err (List ℝ × R)) (states : List SimState) (s : Survey R) : Prop where
  built : Built s.table
  radius : ∃ rad, s.table.radius = some rad ∧ 0 ≤ rad ∧ rad ≤ 180
  time : ∃ times : List ℝ, s.table.cols.get? "time".toList = some (times.map .num)
  filter : ∃ fs : List Name, s.table.cols.get? "filter".toList = some (fs.map .str)
  rotation : s.table.cols.has "rotation".toList = false ∨ ∃ rots : List ℝ, s.table.cols.get? "rotation".toList = some (rots.map .num)
  run : ∀ st ∈ states, ∀ (rows : List Nat) (ts : List ℝ) (fs : List Name) (r : R), (∀ q ∈ rows, q < s.table.len) →
    rows.map (entryOf s.table "time".toList) = ts.map (fun t => some (.num t)) →
    rows.map (entryOf s.table "filter".toList) = fs.map (fun f => some (.str f)) →
    ∃ p r1 e out, s.eval ts fs st.state r = .ok (p, r1) ∧ p.length = rows.length ∧ s.error p rows = .ok e ∧ e.length = rows.length ∧
      noise p e r1 = .ok out ∧ out.1.length = rows.length

theorem getItem_direct {t : ObsTable} {name : Name} {c : List Cell} (h : t.cols.get? name = some c) : t.getItem name = .ok c := by
  unfold ObsTable.getItem; rw [h]

theorem mapM_num_map (l : List ℝ) : (l.map Cell.num).mapM Cell.num? = .ok l := by
  induction l with
  | nil => rfl
  | cons x l ih => rw [List.map_cons, List.mapM_cons, ih]; rfl

theorem mapM_str_map (l : List Name) : (l.map Cell.str).mapM Cell.str? = .ok l := by
  induction l with
  | nil => rfl
  | cons x l ih => rw [List.map_cons, List.mapM_cons, ih]; rfl

theorem mapM_get_ok {β : Type} (c : List β) : ∀ (rows : List Nat), (∀ q ∈ rows, q < c.length) → ∃ l, rows.mapM (fun i => c[i]?) = some l ∧ l.length = rows.length
  | [], _ => ⟨[], rfl, rfl⟩
  | q :: rows, h => by
    obtain ⟨l, hl, hn⟩ := mapM_get_ok c rows (fun x hx => h x (by simp [hx]))
    have hq := h q (by simp)
    refine ⟨c[q] :: l, ?_, by simp [hn]⟩
    rw [List.mapM_cons, List.getElem?_eq_getElem hq, hl]
    rfl

/-- The nested table has the standard columns only, all as long as the index. -/
structure Good (nd : Nested) : Prop where
  keys : ∀ c ∈ nd.cols.keys, c ∈ baseCols
  nodup : nd.cols.keys.Nodup
  len : ∀ c ∈ baseCols, (getc nd.cols c).length = nd.index.length

theorem good_check {nd : Nested} (h : Good nd) : checkNested nd = .ok nd := by
  unfold checkNested
  rw [if_pos]
  rw [List.all_eq_true]
  intro q hq
  have hk : q.1 ∈ nd.cols.keys := List.mem_map.2 ⟨q, hq, rfl⟩
  have := h.len q.1 (h.keys _ hk)
  unfold getc at this
  rw [Dict.get?_of_mem h.nodup (show (q.1, q.2) ∈ nd.cols from hq)] at this
  simpa using this

theorem good_empty : Good (emptyNested []) := by
  refine ⟨?_, ?_, ?_⟩
  · intro c hc
    have : (emptyNested []).cols.keys = baseCols := rfl
    rw [this] at hc; exact hc
  · have : (emptyNested []).cols.keys = baseCols := rfl
    rw [this]; decide
  · intro c hc
    simp only [baseCols, List.mem_cons, List.not_mem_nil, or_false] at hc
    rcases hc with rfl | rfl | rfl | rfl | rfl | rfl <;> rfl

theorem keys_extend {d : Dict Name (List NCell)} {k : Name} {v : List NCell} (hk : k ∈ baseCols) (h : ∀ c ∈ d.keys, c ∈ baseCols) (hn : d.keys.Nodup) :
    (∀ c ∈ (extend d k v).keys, c ∈ baseCols) ∧ (extend d k v).keys.Nodup := by
  unfold extend
  refine ⟨?_, Dict.nodup_set hn _ _⟩
  intro c hc
  rcases (Dict.mem_keys_set _ _ _ _).1 hc with rfl | hc
  · exact hk
  · exact h c hc

theorem one_succeeds {noise : List ℝ → List ℝ → R → Except Err (List ℝ × R)} {states : List SimState} {s : Survey R} (hu : Usable noise states s)
    {st : SimState} (hst : st ∈ states) {times : List ℝ} {filters : List Name} (ht : timeCol s.table = .ok times) (hf : textCol s.table = .ok filters)
    {oi : ObsIndex} (hoi : ∀ q ∈ oi.rows, q < s.table.len) (idx j : Nat) (nd : Nested) (hnd : Good nd) (r : R) :
    ∃ nd' n r', simulateOne noise none [] idx j st.state s times filters oi nd r = .ok (nd', n, r') ∧ Good nd' := by
  obtain ⟨T, hT⟩ := hu.time
  obtain ⟨F, hF⟩ := hu.filter
  have eT : times = T := by
    have h1 : timeCol s.table = .ok T := by unfold timeCol; rw [getItem_direct hT]; exact mapM_num_map T
    rw [h1] at ht; cases ht; rfl
  have eF : filters = F := by
    have h1 : textCol s.table = .ok F := by unfold textCol; rw [getItem_direct hF]; exact mapM_str_map F
    rw [h1] at hf; cases hf; rfl
  subst eT; subst eF
  obtain ⟨hwf, -⟩ := built_spec hu.built
  have lT : times.length = s.table.len := by
    have := hwf.1 _ (Dict.mem_of_get? hT); simpa using this
  have lF : filters.length = s.table.len := by
    have := hwf.1 _ (Dict.mem_of_get? hF); simpa using this
  have hsel : ∃ ts fs, selectObs none times filters st.state oi = .ok (oi, ts, fs) := by
    unfold selectObs
    split
    · exact ⟨[], [], rfl⟩
    · obtain ⟨ts, h1, -⟩ := mapM_get_ok times oi.rows (fun q hq => by rw [lT]; exact hoi q hq)
      obtain ⟨fs, h2, -⟩ := mapM_get_ok filters oi.rows (fun q hq => by rw [lF]; exact hoi q hq)
      rw [h1]
      dsimp only
      rw [h2]
      exact ⟨ts, fs, rfl⟩
  obtain ⟨ts, fs, hsel⟩ := hsel
  obtain ⟨e1, e2, -⟩ := selectObs_spec hsel
  have c1 : oi.rows.map (entryOf s.table "time".toList) = ts.map (fun t => some (.num t)) := by
    have := congrArg (List.map (Option.map Cell.num)) e1
    simp only [List.map_map, Function.comp_def, Option.map_some] at this
    rw [← this]
    exact List.map_congr_left fun i _ => timeCol_entry ht i
  have c2 : oi.rows.map (entryOf s.table "filter".toList) = fs.map (fun f => some (.str f)) := by
    have := congrArg (List.map (Option.map Cell.str)) e2
    simp only [List.map_map, Function.comp_def, Option.map_some] at this
    rw [← this]
    exact List.map_congr_left fun i _ => textCol_entry hf i
  obtain ⟨p, r1, e, out, p1, p2, p3, p4, p5, p6⟩ := hu.run st hst oi.rows ts fs r hoi c1 c2
  obtain ⟨flux, r2⟩ := out
  have lt : ts.length = oi.rows.length := by have := congrArg List.length c1; simpa using this.symm
  have lf : fs.length = oi.rows.length := by have := congrArg List.length c2; simpa using this.symm
  have hrun : ∃ nd', simulateOne noise none [] idx j st.state s times filters oi nd r = .ok (nd', ts.length, r2) ∧
      (∀ c ∈ nd'.cols.keys, c ∈ baseCols) ∧ nd'.cols.keys.Nodup ∧ nd'.index = nd.index ++ List.replicate ts.length idx ∧
      ∀ c, getc nd'.cols c = getc nd.cols c ++ basePart ⟨oi.rows, ts, fs, p, e, flux⟩ j ts.length c := by
    unfold simulateOne
    rw [hsel]
    dsimp only
    rw [p1]
    dsimp only
    rw [p3]
    dsimp only
    rw [p5]
    dsimp only [saveAll]
    have k1 := keys_extend (v := ts.map .num) (show "mjd".toList ∈ baseCols by decide) hnd.keys hnd.nodup
    have k2 := keys_extend (v := fs.map .text) (show "filter".toList ∈ baseCols by decide) k1.1 k1.2
    have k3 := keys_extend (v := p.map .num) (show "flux_perfect".toList ∈ baseCols by decide) k2.1 k2.2
    have k4 := keys_extend (v := flux.map .num) (show "flux".toList ∈ baseCols by decide) k3.1 k3.2
    have k5 := keys_extend (v := e.map .num) (show "fluxerr".toList ∈ baseCols by decide) k4.1 k4.2
    have k6 := keys_extend (v := List.replicate ts.length (.survey j)) (show "survey_idx".toList ∈ baseCols by decide) k5.1 k5.2
    refine ⟨_, rfl, k6.1, k6.2, rfl, ?_⟩
    intro c
    simp only [getc_extend, basePart, List.append_assoc]
  obtain ⟨nd', h1, h2, h3, h4, h5⟩ := hrun
  refine ⟨nd', _, _, h1, h2, h3, ?_⟩
  intro c hc
  rw [h5 c, h4, List.length_append, List.length_append, hnd.len c hc]
  congr 1
  simp only [baseCols, List.mem_cons, List.not_mem_nil, or_false] at hc
  simp only at p6
  rcases hc with rfl | rfl | rfl | rfl | rfl | rfl <;> simp [basePart, lt, lf, p2, p4, p6]

/-- A survey ready to be simulated for `states`. -/
def Ready (noise : List ℝ → List ℝ → R → Except Err (List ℝ × R)) (states : List SimState) (p : Prepared R) : Prop :=
  Usable noise states p.survey ∧ timeCol p.survey.table = .ok p.times ∧ textCol p.survey.table = .ok p.filters ∧ p.matched.length = states.length ∧
  ∀ oi ∈ p.matched, ∀ q ∈ oi.rows, q < p.survey.table.len

theorem surveys_succeed {noise : List ℝ → List ℝ → R → Except Err (List ℝ × R)} {states : List SimState} {st : SimState} (hst : st ∈ states) {idx : Nat}
    (hidx : idx < states.length) : ∀ (ps : List (Prepared R)) (j total : Nat) (nd : Nested) (r : R), (∀ p ∈ ps, Ready noise states p) → Good nd →
      ∃ nd' n r', simulateSurveys noise none [] idx st.state j ps total nd r = .ok (nd', n, r') ∧ Good nd'
  | [], _, total, nd, r, _, hg => ⟨nd, total, r, rfl, hg⟩
  | p :: ps, j, total, nd, r, hp, hg => by
    obtain ⟨u, t, f, l, m⟩ := hp p (by simp)
    have hi : idx < p.matched.length := by omega
    unfold simulateSurveys
    rw [List.getElem?_eq_getElem hi]
    dsimp only
    obtain ⟨nd1, n1, r1, h1, g1⟩ := one_succeeds u hst t f (m _ (List.getElem_mem hi)) idx j nd hg r
    rw [h1]
    exact surveys_succeed hst hidx ps (j + 1) (total + n1) nd1 r1 (fun p' hp' => hp p' (by simp [hp'])) g1

theorem objects_succeed {noise : List ℝ → List ℝ → R → Except Err (List ℝ × R)} {states : List SimState} (ps : List (Prepared R))
    (hps : ∀ p ∈ ps, Ready noise states p) : ∀ (ss : List SimState) (idx : Nat) (nd : Nested) (r : R), (∀ s ∈ ss, s ∈ states) →
      idx + ss.length = states.length → Good nd → ∃ nd' ns r', simulateObjects noise none [] ps idx ss nd r = .ok (nd', ns, r') ∧ Good nd'
  | [], _, nd, r, _, _, hg => ⟨nd, [], r, rfl, hg⟩
  | s :: ss, idx, nd, r, hs, hl, hg => by
    have hl' : idx < states.length := by rw [List.length_cons] at hl; omega
    obtain ⟨nd1, n1, r1, h1, g1⟩ := surveys_succeed (hs s (by simp)) hl' ps 0 0 nd r hps hg
    obtain ⟨nd2, n2, r2, h2, g2⟩ := objects_succeed ps hps ss (idx + 1) nd1 r1 (fun s' hs' => hs s' (by simp [hs']))
      (by rw [List.length_cons] at hl; omega) g1
    unfold simulateObjects
    rw [h1]
    dsimp only
    rw [h2]
    exact ⟨nd2, _, r2, rfl, g2⟩

theorem prepare_succeeds {noise : List ℝ → List ℝ → R → Except Err (List ℝ × R)} {states : List SimState} {s : Survey R} (hu : Usable noise states s)
    (hpos : ∀ x ∈ states, ∃ ra dec, x.ra = some ra ∧ x.dec = some dec) (tmin tmax : TArg)
    (hmin : tmin = .none ∨ ∃ l, tmin = .arr l ∧ l.length = states.length) (hmax : tmax = .none ∨ ∃ l, tmax = .arr l ∧ l.length = states.length) :
    ∃ p, prepare states tmin tmax s = .ok p ∧ Ready noise states p := by
  obtain ⟨rad, hr, h0, h180⟩ := hu.radius
  obtain ⟨T, hT⟩ := hu.time
  obtain ⟨F, hF⟩ := hu.filter
  have t1 : timeCol s.table = .ok T := by unfold timeCol; rw [getItem_direct hT]; exact mapM_num_map T
  have f1 : textCol s.table = .ok F := by unfold textCol; rw [getItem_direct hF]; exact mapM_str_map F
  have hq : ∃ qs : List (ℝ × ℝ), queryPoints (.arr (states.map (·.ra))) (.arr (states.map (·.dec))) = .ok qs ∧ qs.length = states.length := by
    have h1 : ∃ qs : List (ℝ × ℝ), states.map (·.ra) = qs.map (fun q => some q.1) ∧ states.map (·.dec) = qs.map (fun q => some q.2) := by
      clear hu hmin hmax
      induction states with
      | nil => exact ⟨[], rfl, rfl⟩
      | cons x l ih =>
        obtain ⟨qs, i1, i2⟩ := ih (fun y hy => hpos y (by simp [hy]))
        obtain ⟨ra, dec, h1, h2⟩ := hpos x (by simp)
        exact ⟨(ra, dec) :: qs, by simp [h1, i1], by simp [h2, i2]⟩
    obtain ⟨qs, i1, i2⟩ := h1
    refine ⟨qs, ?_, by have := congrArg List.length i1; simpa using this.symm⟩
    unfold queryPoints
    simp only [QArg.values, i1, i2, List.length_map, ne_eq, not_true_eq_false, if_false]
    have m1 : (qs.map fun q => some q.1).mapM id = some (qs.map (·.1)) := mapM_id_some.2 (by simp)
    have m2 : (qs.map fun q => some q.2).mapM id = some (qs.map (·.2)) := mapM_id_some.2 (by simp)
    rw [m1, m2]
    dsimp only
    rw [List.zip_map', List.map_id'']
    intro q; rfl
  obtain ⟨qs, hq, hql⟩ := hq
  obtain ⟨out, hout⟩ := RangeSearchProps.C37_succeeds hu.built (r := rad) hq hT tmin tmax hu.rotation
    (hmin.imp id fun h => Or.inr (by rw [hql]; exact h)) (hmax.imp id fun h => Or.inr (by rw [hql]; exact h))
  have hout' : s.table.rangeSearch (.arr (states.map (·.ra))) (.arr (states.map (·.dec))) none tmin tmax = .ok out := by
    rw [← hout]
    unfold rangeSearch
    rw [hr]
    rfl
  have hsearch : ∃ m, searchAll s.table states tmin tmax = .ok m := by
    unfold searchAll
    rw [hout']
    cases out with
    | one l =>
      exfalso
      unfold rangeSearch at hout'
      rw [hq] at hout'
      dsimp only at hout'
      rw [hr] at hout'
      dsimp only [HOrElse.hOrElse, OrElse.orElse, Option.orElse] at hout'
      split at hout'
      · cases hout'
      · split at hout'
        · cases hout'
        · rw [if_neg (by simp [QArg.isScalar])] at hout'
          cases hout'
    | many l =>
      dsimp only
      rw [hr]
      exact ⟨_, rfl⟩
  obtain ⟨m, hm⟩ := hsearch
  refine ⟨⟨s, T, F, m⟩, ?_, hu, t1, f1, ?_, ?_⟩
  · unfold prepare
    rw [hm, t1, f1]
  · obtain ⟨_, _, h2, _⟩ := searchAll_spec hu.built hm
    exact h2
  · intro oi hoi q hqm
    obtain ⟨rad', h1, h2, h3⟩ := searchAll_spec hu.built hm
    rw [hr] at h1; cases h1
    obtain ⟨k, hk, rfl⟩ := List.getElem_of_mem hoi
    have hks : k < states.length := by simp only at hk; omega
    obtain ⟨ra, dec, _, _, _, hmatch⟩ := h3 h0 h180 k states[k] m[k] (List.getElem?_eq_getElem hks) (List.getElem?_eq_getElem hk)
    obtain ⟨x, _, hx, _⟩ := (hmatch q).1 hqm
    unfold num cell at hx
    obtain ⟨hwf, -⟩ := built_spec hu.built
    cases hc : s.table.cols.get? "ra".toList with
    | none => rw [hc] at hx; cases hx
    | some c =>
      rw [hc] at hx
      have hlen := hwf.1 _ (Dict.mem_of_get? hc)
      simp only [Option.bind_some] at hx hlen
      cases hcq : c[q]? with
      | none => rw [hcq] at hx; cases hx
      | some y =>
        have := (List.getElem?_eq_some_iff.1 hcq).1
        show q < s.table.len
        omega

/-- C40. A simulation without extra columns succeeds whenever its input is sound: at least one object, each with a position (and with t0, if a time window is
given); one passband group per survey; and usable surveys. No object is too far away, no window too narrow, no survey too empty. -/
theorem C40_succeeds {noise : List ℝ → List ℝ → R → Except Err (List ℝ × R)} {isBand : Bool} {states : List SimState} {surveys : List (Survey R)}
    {offset : Option (List (Option ℝ))} (hne : states ≠ []) (hband : isBand = false ∨ surveys.length ≤ 1)
    (hpos : ∀ x ∈ states, ∃ ra dec, x.ra = some ra ∧ x.dec = some dec)
    (hoff : offset = none ∨ ∃ before after, offset = some [before, after] ∧ ∀ x ∈ states, ∃ t, x.t0 = some t)
    (hu : ∀ s ∈ surveys, Usable noise states s) (r : R) :
    ∃ res r', simulateLightcurves noise isBand states surveys surveys.length [] none offset r = .ok (res, r') := by
  unfold simulateLightcurves
  rw [if_neg (by rw [List.length_eq_zero_iff]; exact hne), if_neg (by simp), if_neg (by
    rintro ⟨h1, h2⟩
    rcases hband with h | h
    · rw [h] at h2; cases h2
    · omega)]
  have hwin : ∃ tmin tmax, getTimeWindows (t0Of states) offset = .ok (tmin, tmax) ∧
      (tmin = .none ∨ ∃ l, tmin = .arr l ∧ l.length = states.length) ∧ (tmax = .none ∨ ∃ l, tmax = .arr l ∧ l.length = states.length) := by
    rcases hoff with rfl | ⟨before, after, rfl, ht⟩
    · exact ⟨.none, .none, rfl, Or.inl rfl, Or.inl rfl⟩
    · have hl : ∃ l : List ℝ, states.map (·.t0) = l.map some := by
        clear hu hband hpos hne
        induction states with
        | nil => exact ⟨[], rfl⟩
        | cons x l ih =>
          obtain ⟨l', hl'⟩ := ih (fun y hy => ht y (by simp [hy]))
          obtain ⟨t, h1⟩ := ht x (by simp)
          exact ⟨t :: l', by simp [h1, hl']⟩
      obtain ⟨l, hl⟩ := hl
      have hll : l.length = states.length := by have := congrArg List.length hl; simpa using this.symm
      have hw : ∀ (op : ℝ → ℝ), windowSide op (l.map some) = .ok (l.map op) := by
        intro op; unfold windowSide; rw [mapM_id_some.2 rfl]
      have key : getTimeWindows (t0Of states) (some [before, after]) = windowPair (l.map some) [before, after] := by
        match states, hl, hne with
        | [x], hl, _ =>
          obtain ⟨t, h1⟩ := ht x (by simp)
          rw [t0Of_one, h1]
          simp only [List.map_cons, List.map_nil, h1] at hl
          rw [← hl]
          rfl
        | x :: y :: rest, hl, _ =>
          show getTimeWindows (.arr ((x :: y :: rest).map (·.t0))) _ = _
          rw [hl]; rfl
      rw [key]
      have hwb : ∀ (op : ℝ → ℝ → ℝ) (b : Option ℝ), ∃ w, windowBound op (l.map some) b = .ok w ∧ (w = .none ∨ ∃ l', w = .arr l' ∧ l'.length = states.length) := by
        intro op b
        cases b with
        | none => exact ⟨.none, rfl, Or.inl rfl⟩
        | some b => exact ⟨.arr (l.map fun t => op t b), by simp only [windowBound, hw], Or.inr ⟨_, rfl, by simp [hll]⟩⟩
      obtain ⟨w1, e1, e2⟩ := hwb (· - ·) before
      obtain ⟨w2, e3, e4⟩ := hwb (· + ·) after
      exact ⟨w1, w2, by simp only [windowPair, e1, e3], e2, e4⟩
  obtain ⟨tmin, tmax, hw, hmin, hmax⟩ := hwin
  rw [hw]
  dsimp only
  have hprep : ∃ ps, surveys.mapM (prepare states tmin tmax) = .ok ps ∧ ∀ p ∈ ps, Ready noise states p := by
    clear hband
    induction surveys with
    | nil => exact ⟨[], rfl, by simp⟩
    | cons s ss ih =>
      obtain ⟨ps, h1, h2⟩ := ih (fun s' hs' => hu s' (by simp [hs']))
      obtain ⟨p, h3, h4⟩ := prepare_succeeds (hu s (by simp)) hpos tmin tmax hmin hmax
      refine ⟨p :: ps, ?_, ?_⟩
      · rw [List.mapM_cons, h3, h1]; rfl
      · intro q hq
        rcases List.mem_cons.1 hq with rfl | hq
        · exact h4
        · exact h2 q hq
  obtain ⟨ps, hp, hready⟩ := hprep
  rw [hp]
  dsimp only
  obtain ⟨nd, ns, r', h1, h2⟩ := objects_succeed ps hready states 0 (emptyNested []) r (fun s hs => hs) (by simp) good_empty
  rw [h1]
  dsimp only
  rw [good_check h2]
  exact ⟨_, _, rfl⟩

/-- The demonstration survey is usable, for every list of objects. -/
theorem demo_usable (states : List SimState) : Usable noNoise states demoSurvey := by
  refine ⟨ObsTableProps.twoTable_built, ⟨1, rfl, by norm_num, by norm_num⟩, ⟨[7, 8], rfl⟩, ⟨["g".toList, "r".toList], rfl⟩, Or.inl rfl, ?_⟩
  intro st _ rows ts fs r _ h1 _
  have hl : ts.length = rows.length := by have := congrArg List.length h1; simpa using this.symm
  exact ⟨ts, r, ts.map fun _ => 0, (ts, r), rfl, hl, rfl, by simpa using hl, rfl, hl⟩

example : ∃ res r', simulateLightcurves noNoise false [demoObject 0, demoObject 90] [demoSurvey, demoSurvey] 2 [] none (some [some 1, none]) () = .ok (res, r') :=
  C40_succeeds (surveys := [demoSurvey, demoSurvey]) (by simp) (Or.inl rfl)
    (by intro x hx; simp only [List.mem_cons, List.not_mem_nil, or_false] at hx; rcases hx with rfl | rfl <;> exact ⟨_, _, rfl, rfl⟩)
    (Or.inr ⟨some 1, none, rfl, by intro x hx; simp only [List.mem_cons, List.not_mem_nil, or_false] at hx; rcases hx with rfl | rfl <;> exact ⟨_, rfl⟩⟩)
    (by intro s hs; simp only [List.mem_cons, List.not_mem_nil, or_false] at hs; rcases hs with rfl | rfl <;> exact demo_usable _) ()

end LCL.SimulateProps
