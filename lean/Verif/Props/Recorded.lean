import Verif.Lemmas.Recorded
import Verif.Spec.Recorded

/-!
# C141 — an object can be examined again from its row of the results
-/

namespace LCL.RecordedProps
open LCL LCL.GraphLemmas LCL.GraphSpec LCL.NodeSpec LCL.PhysSpec LCL.FullRun LCL.FullRunSpec LCL.FullRunProps LCL.EndToEnd LCL.EndToEndSpec LCL.Direct LCL.DirectSpec LCL.DirectProps
  LCL.RecordedSpec LCL.RecordedLemmas
variable {V A σ : Type}

/-- The sample of a sampled state and its dictionary. -/
theorem sample_exact {gs : GState ℝ} (hf : Filled gs) {k : Nat} :
    ∃ s, restored (sampleOf gs k).toDict = .ok s ∧ s.states = (sampleOf gs k).states ∧ s.numSamples = 1 := by
  have hsh := (reachable_wf hf.reach).toShape
  refine fromDict_exact (sampleOf_shape gs hsh k) ?_
  intro n d hd
  have : (sampleOf gs k).states.get? n = (gs.states.get? n).map fun d => d.map fun r => (r.1, if gs.numSamples = 1 then r.2 else rowD r.2 k) := by
    unfold sampleOf
    exact get?_map_val _ _ _
  rw [this] at hd
  cases h : gs.states.get? n with
  | none => rw [h] at hd; cases hd
  | some d0 =>
    rw [h] at hd
    cases hd
    have := hf.full n d0 h
    simpa using this

/-- What the `params` cell of row `k` holds. -/
theorem row_dict {isBand : Bool} {ev : Heap ℝ σ → PNode ℝ σ → SurveyArg → List ℝ → List Name → SState ℝ → σ → Except Err (List ℝ × σ)} {draw : σ → ℝ × σ} {H : Heap ℝ σ} (hG : GraphOK H) {root : NodeId} {objs : List NodeId} (hph : Physical H root) {n : Int}
    {args : List SurveyArg} {saveCols paramCols : List Name} {offset : Option (List (Option ℝ))} {w : σ} {out : Outcome σ}
    (hstd : ∀ c ∈ paramCols, colName c ∉ standardCols)
    (h : simulateFullWith isBand ev draw H root objs n args saveCols paramCols offset w = .ok out) :
    Filled out.sampled ∧ (out.sampled.numSamples : Int) = n ∧
    ∃ l, out.table.get? "params".toList = some l ∧ l = (List.range out.sampled.numSamples).map fun k => .dict (sampleOf out.sampled k).toDict := by
  obtain ⟨run, nd, table, states, res, table', hn, hsp, hsm, hnd, hp, hsim, hnest, hno, hfr⟩ := run_parts h
  obtain ⟨hs, hall⟩ := base_parts hG hph hsp hnd
  obtain ⟨_, h1, _⟩ := C119_sampled hG h
  obtain ⟨t1, t2, hcol, ra, dec, t0, z, v1, v2, v3, v4, hloop⟩ := states_spec hs hall hp
  obtain ⟨p1, p2⟩ := paramLoop_spec hs _ _ hloop
  obtain ⟨n1, l, n2, n3, n4⟩ := setNobs_spec hno
  obtain ⟨rfl, f1⟩ := frame_ok hfr
  rw [hsm] at h1 ⊢
  refine ⟨sampled_filled hG hsp, h1, ?_⟩
  rw [n1 "params".toList (by decide), p1 "params".toList (by
    intro hm
    obtain ⟨c, hc, e⟩ := List.mem_map.1 hm
    exact hstd c hc (by rw [e]; simp [standardCols]))]
  exact ⟨_, rfl, by simp [List.map_map, Function.comp_def]⟩

/-- C141. After a successful `simulate_lightcurves` of any kind of model, `GraphState.from_dict` of the `params` of row `k` is a state with one sample, which holds for
every node and every parameter the value it had in sample `k`, and nothing else. -/
theorem C141_restores {isBand : Bool} {ev : Heap ℝ σ → PNode ℝ σ → SurveyArg → List ℝ → List Name → SState ℝ → σ → Except Err (List ℝ × σ)} {draw : σ → ℝ × σ} {H : Heap ℝ σ} (hG : GraphOK H) {root : NodeId} {objs : List NodeId} (hph : Physical H root) {n : Int}
    {args : List SurveyArg} {saveCols paramCols : List Name} {offset : Option (List (Option ℝ))} {w : σ} {out : Outcome σ}
    (hstd : ∀ c ∈ paramCols, colName c ∉ standardCols)
    (h : simulateFullWith isBand ev draw H root objs n args saveCols paramCols offset w = .ok out) (k : Nat) (hk : (k : Int) < n) :
    ∃ d s, RowParams out.table k d ∧ restored d = .ok s ∧ s.numSamples = 1 ∧ ∀ node p, readParam s node p = sampleValue out.sampled node p k := by
  obtain ⟨hf, hn, l, hl, rfl⟩ := row_dict hG hph hstd h
  obtain ⟨s, e1, e2, e3⟩ := sample_exact hf (k := k)
  have hkn : k < out.sampled.numSamples := by omega
  have hsh := (reachable_wf hf.reach).toShape
  have hss := sampleOf_shape out.sampled hsh k
  refine ⟨_, s, ⟨_, hl, by rw [List.getElem?_map, List.getElem?_range hkn]; rfl⟩, e1, e3, fun node p => ?_⟩
  have hs' : Shape s := ⟨by omega, e2 ▸ hss.nodes, by rw [e2]; exact hss.vars, by rw [e2]; exact hss.dotN, by rw [e2]; exact hss.dotV, fun h => absurd e3 h⟩
  rw [read_eq_look s hs', sampleValue_look hsh hkn]
  unfold look
  rw [e2]

/-- C141. Whatever model is asked, in whatever graph, about whatever times, wavelengths, passbands and filters, with whatever keywords: the state restored from row `k`
gets the answer (or the exception) sample `k` of the run's own state gets. -/
theorem C141_answers {isBand : Bool} {ev : Heap ℝ σ → PNode ℝ σ → SurveyArg → List ℝ → List Name → SState ℝ → σ → Except Err (List ℝ × σ)} {draw : σ → ℝ × σ} {H : Heap ℝ σ} (hG : GraphOK H) {root : NodeId} {objs : List NodeId} (hph : Physical H root) {n : Int}
    {args : List SurveyArg} {saveCols paramCols : List Name} {offset : Option (List (Option ℝ))} {w : σ} {out : Outcome σ}
    (hstd : ∀ c ∈ paramCols, colName c ∉ standardCols)
    (h : simulateFullWith isBand ev draw H root objs n args saveCols paramCols offset w = .ok out) (k : Nat) (hk : (k : Int) < n)
    {d : Dict Name (Val ℝ)} (hd : RowParams out.table k d) {s g : GState ℝ} (hs : restored d = .ok s) (hg : out.sampled.extractSample (k : Nat) = .ok g)
    (m : SEDModel V (Dict Name A) σ ℝ) (H2 : Heap ℝ σ) (root2 : NodeId) (times waves : List ℝ) (kw : Dict Name A) (arg : BandArg ℝ) (filters : Option (List Name)) (w2 : σ) :
    askSed m H2 root2 times waves (some s) none kw w2 = askSed m H2 root2 times waves (some g) none kw w2 ∧
    askBandfluxes m H2 root2 arg times filters (some s) w2 = askBandfluxes m H2 root2 arg times filters (some g) w2 := by
  obtain ⟨hf, hn, l, hl, rfl⟩ := row_dict hG hph hstd h
  obtain ⟨s', e1, e2, e3⟩ := sample_exact hf (k := k)
  have hkn : k < out.sampled.numSamples := by omega
  have hsh := (reachable_wf hf.reach).toShape
  obtain ⟨l', q1, q2⟩ := hd
  rw [hl] at q1
  cases q1
  rw [List.getElem?_map, List.getElem?_range hkn] at q2
  simp only [Option.map_some, Option.some.injEq, RCell.dict.injEq] at q2
  subst q2
  rw [e1] at hs
  cases hs
  rw [extractSample_ok out.sampled hsh k hkn] at hg
  cases hg
  have key : ∀ {β : Type} (f : SState ℝ → σ → Except Err (β × σ)) (w : σ), eachState f s w = eachState f (sampleOf out.sampled k) w := by
    intro β f w
    unfold eachState
    rw [if_pos e3, if_pos (sampleOf_numSamples _ _), e2]
  unfold askSed askBandfluxes stateFor
  dsimp only
  simp only [key]
  exact ⟨trivial, trivial⟩

/-! ### The recorded fluxes -/

/-- The evaluation of a model whose parts treat the times one by one does not depend on the random numbers. -/
theorem single_uniform {R W : Type} (m : SEDModel V W R ℝ) (st : SState ℝ) (hm : RowSed m st)
    (hex : ∀ ex, m.extrap = some ex → RowExt ex) (he : ∀ e ∈ m.restEffects ++ m.obsEffects, RowEffect e)
    (noKw kw : W) (ws : List ℝ) :
    (∃ row : ℝ → List ℝ, (∀ t, (row t).length = ws.length) ∧ ∀ ts r, m.evaluateSingle noKw ts ws st r kw = .ok (ts.map row, r)) ∨
      ∃ e, ∀ ts r, m.evaluateSingle noKw ts ws st r kw = .error e := by
  unfold SEDModel.evaluateSingle localParams
  cases st.get? m.nodeString with
  | none => exact Or.inr ⟨_, fun _ _ => rfl⟩
  | some p =>
    simp only
    cases redshiftOf m.applyRedshift p with
    | error e => exact Or.inr ⟨e, fun _ _ => rfl⟩
    | ok zs =>
      simp only [PhysicalProps.restTimes_eq, PhysicalProps.restWaves_eq, PhysicalProps.scaled_eq]
      rcases BandfluxProps.sedExtrapolated_rows m st hm hex noKw kw (ws.map (frameWave zs)) with ⟨row, hl, hr⟩ | ⟨e, hr⟩
      · simp only [hr]
        rcases BandfluxProps.applyEffects_rows p (ws.map (frameWave zs)) m.restEffects
          (fun e h => he e (List.mem_append_left _ h)) with ⟨h, hl', hh⟩ | ⟨e, hh⟩
        · simp only [hh]
          rcases BandfluxProps.applyEffects_rows p ws m.obsEffects (fun e h => he e (List.mem_append_right _ h)) with ⟨h2, hl2, hh2⟩ | ⟨e, hh2⟩
          · left
            refine ⟨fun t => h2 t (((h (frameTime zs t) (row (frameTime zs t)))).map fun x => x * frameFactor zs), ?_, ?_⟩
            · intro t
              rw [hl2, List.length_map, hl', hl, List.length_map]
            · intro ts r
              simp only [List.map_map, Function.comp_def]
              exact hh2 ts r (fun t => (h (frameTime zs t) (row (frameTime zs t))).map fun x => x * frameFactor zs)
          · right
            refine ⟨e, fun ts r => ?_⟩
            simp only [List.map_map, Function.comp_def]
            exact hh2 ts r (fun t => (h (frameTime zs t) (row (frameTime zs t))).map fun x => x * frameFactor zs)
        · exact Or.inr ⟨e, fun ts r => by rw [hh]⟩
      · exact Or.inr ⟨e, fun ts r => by rw [hr]⟩

/-- One observation: nor does its flux. -/
theorem one_uniform {R W : Type} (m : SEDModel V W R ℝ) (st : SState ℝ) (hm : RowSed m st)
    (hex : ∀ ex, m.extrap = some ex → RowExt ex) (he : ∀ e ∈ m.restEffects ++ m.obsEffects, RowEffect e)
    (noKw : W) (g : PassbandGroup ℝ) {t x : ℝ} {f : Name} {r : R} (h : m.evaluateBandfluxesSingle noKw g [t] [f] st r = .ok ([x], r)) (r' : R) :
    m.evaluateBandfluxesSingle noKw g [t] [f] st r' = .ok ([x], r') := by
  unfold SEDModel.evaluateBandfluxesSingle at h ⊢
  cases hg : g.getItem f with
  | error e =>
    unfold bandfluxesSingle at h
    rw [BandfluxProps.npUnique_singleton] at h
    simp only [bandfluxLoop] at h
    rw [hg] at h
    cases h
  | ok pb =>
    rcases single_uniform m st hm hex he noKw noKw pb.waves with ⟨row, hl, hr⟩ | ⟨e, hr⟩
    · by_cases hw : pb.waves = []
      · obtain ⟨e, h3⟩ := EndToEndProps.empty_waves m noKw st r
        have := hr [t] r
        rw [hw, h3] at this
        cases this
      · have h1 := BandfluxProps.C31_value (fun ts ws r => m.evaluateSingle noKw ts ws st r noKw) r g t f pb (row t) hg hw (hl t) (hr [t] r)
        have h2 := BandfluxProps.C31_value (fun ts ws r => m.evaluateSingle noKw ts ws st r noKw) r' g t f pb (row t) hg hw (hl t) (hr [t] r')
        rw [h1] at h
        cases h
        exact h2
    · unfold bandfluxesSingle at h
      rw [BandfluxProps.npUnique_singleton] at h
      simp only [bandfluxLoop, List.map_cons, List.map_nil, decide_true, PhysLemmas.gather_true, PhysLemmas.gather_nil] at h
      rw [hg] at h
      simp only at h
      rw [hr] at h
      cases h

theorem eachState_single {β : Type} {f : SState ℝ → σ → Except Err (β × σ)} {s : GState ℝ} (h1 : s.numSamples = 1) {st : SState ℝ} (h2 : sstateOf s.states = .ok st)
    {w w' : σ} {b : β} (h3 : f st w = .ok (b, w')) : eachState f s w = .ok (.one b, w') := by
  unfold eachState
  rw [if_pos h1, h2]
  dsimp only
  rw [h3]

theorem evalModel_single {R W : Type} {m : SEDModel V W R ℝ} {noKw : W} {g : PassbandGroup ℝ} {ts : List ℝ} {fs : List Name} {st : SState ℝ} {r r' : R} {p : List ℝ}
    (h : evalModel m noKw g ts fs st r = .ok (p, r')) : fs.length = ts.length ∧ m.evaluateBandfluxesSingle noKw g ts fs st r = .ok (p, r') := by
  unfold evalModel evaluateBandfluxes at h
  by_cases hl : fs.length = ts.length
  · refine ⟨hl, ?_⟩
    simp only [BandArg.resolve, hl, ne_eq, not_true_eq_false, if_false, eachSample] at h
    cases hx : m.evaluateBandfluxesSingle noKw g ts fs st r with
    | error e => rw [hx] at h; cases h
    | ok a => rw [hx] at h; cases h; rfl
  · simp only [BandArg.resolve, hl, ne_eq, not_false_eq_true, if_true] at h
    cases h

/-- C141: the recorded fluxes can be had again. Let compute_sed, the extrapolator and the effects treat the times one by one and draw no random numbers. Every entry of the
lightcurve of row `k` names a survey; asked for the flux at the entry's time in the entry's filter, with that survey's passbands and the state restored from the row's
`params`, the model answers with exactly the entry's `flux_perfect`. -/
theorem C141_flux (m : SEDModel V (Dict Name A) σ ℝ) (hm : ∀ st, RowSed m st) (hex : ∀ ex, m.extrap = some ex → RowExt ex)
    (he : ∀ e ∈ m.restEffects ++ m.obsEffects, RowEffect e) {draw : σ → ℝ × σ} {H : Heap ℝ σ} (hG : GraphOK H) {root : NodeId} (hph : Physical H root) {n : Int}
    {args : List SurveyArg} {saveCols paramCols : List Name} {offset : Option (List (Option ℝ))} {w : σ} {out : Outcome σ}
    (hstd : ∀ c ∈ paramCols, colName c ∉ standardCols) (hne : args ≠ []) (hbuilt : ∀ a ∈ args, ObsSpec.Built a.table)
    (hrad : ∀ a ∈ args, ∃ rad, a.table.radius = some rad ∧ 0 ≤ rad ∧ rad ≤ 180) (hsave : saveCols.Nodup ∧ ∀ c ∈ saveCols, c ∉ baseCols)
    (h : simulateFull m [] draw H root n args saveCols paramCols offset w = .ok out) (k : Nat) (hk : (k : Int) < n)
    {d : Dict Name (Val ℝ)} (hd : RowParams out.table k d) {s : GState ℝ} (hs : restored d = .ok s) (i : Nat) (hi : i < (lightcurve out.nested k "mjd".toList).length) :
    ∃ (j : Nat) (a : SurveyArg) (t x : ℝ) (f : Name), args[j]? = some a ∧ (lightcurve out.nested k "survey_idx".toList)[i]? = some (.survey j) ∧
      (lightcurve out.nested k "mjd".toList)[i]? = some (.num t) ∧ (lightcurve out.nested k "filter".toList)[i]? = some (.text f) ∧
      (lightcurve out.nested k "flux_perfect".toList)[i]? = some (.num x) ∧
      ∀ w2 : σ, askBandfluxes m out.graph root (.group a.group) [t] (some [f]) (some s) w2 = .ok (out.graph, .one [x], w2) := by
  obtain ⟨hf, hn, l, hl, rfl⟩ := row_dict hG hph hstd h
  obtain ⟨s', e1, e2, e3⟩ := sample_exact hf (k := k)
  have hkn : k < out.sampled.numSamples := by omega
  obtain ⟨l', q1, q2⟩ := hd
  rw [hl] at q1
  cases q1
  rw [List.getElem?_map, List.getElem?_range hkn] at q2
  simp only [Option.map_some, Option.some.injEq, RCell.dict.injEq] at q2
  subst q2
  rw [e1] at hs
  cases hs
  obtain ⟨run, nd, table, states, res, table', _, hsp, hsm, hnd, hp, hsim, hnest, hno, hfr⟩ := run_parts h
  obtain ⟨hsh, hall⟩ := base_parts hG hph hsp hnd
  obtain ⟨ra, dec, t0, z, samples, ss, ora, odec, ot0, hra, hdec, ht0, hz, hsamp, htb, hss, hora, hodec, hot0, ⟨l1, l2, l3⟩, rfl⟩ := prepare_parts hp
  rw [iterate_ok run.gs hsh] at hsamp
  cases hsamp
  obtain ⟨m1, m2⟩ := mapM_get _ _ hss
  have hlen : ss.length = run.gs.numSamples := by rw [m1]; simp
  rw [hsm] at hkn e2 hn
  obtain ⟨st, b1, b2⟩ := m2 k (sampleOf run.gs k) (by rw [List.getElem?_map, List.getElem?_range hkn]; rfl)
  have hoc : ora.length = run.gs.numSamples ∧ odec.length = run.gs.numSamples ∧ ot0.length = run.gs.numSamples := ⟨by omega, by omega, by omega⟩
  obtain ⟨s1, s2⟩ := simStates_get ss ora odec ot0 (by omega) (by omega) (by omega)
  obtain ⟨so, hso⟩ : ∃ so, (simStates ss ora odec ot0)[k]? = some so := ⟨_, List.getElem?_eq_getElem (by omega)⟩
  have hst : so.state = st := by
    have := (s2 k so hso).1
    rw [b1] at this
    exact (Option.some.inj this).symm
  have hobs : ∀ s ∈ simStates ss ora odec ot0, ∀ a ∈ args, Fluxes (evalModel { m with nodeString := nd.str } [] a.group) s.state
      ((fun (a : SurveyArg) (st : SState ℝ) (f : Name) (t x : ℝ) => ∀ r : σ, { m with nodeString := nd.str }.evaluateBandfluxesSingle [] a.group [t] [f] st r = .ok ([x], r)) a s.state) := by
    intro s0 _ a _ ts fs r p r' hev
    obtain ⟨hfl, hev⟩ := evalModel_single hev
    have hrow : RowWise (fun ts ws r => { m with nodeString := nd.str }.evaluateSingle [] ts ws s0.state r []) r :=
      BandfluxProps.evaluateSingle_rows { m with nodeString := nd.str } s0.state (hm s0.state) hex he [] [] r
    have hr' : r' = r := by
      have hev' := hev
      unfold SEDModel.evaluateBandfluxesSingle bandfluxesSingle at hev'
      exact ((BandfluxProps.loop_spec hrow a.group ts fs hfl (npUnique fs) (ts.map fun _ => 0)
        (BandfluxProps.nodup_npUnique _) (fun f hf => (BandfluxProps.mem_npUnique _ _).1 hf) (by simp)).1 _ hev').1
    subst hr'
    obtain ⟨c1, c2⟩ := (BandfluxProps.C31_independent _ r' hrow a.group ts fs hfl p).1 hev
    refine ⟨rfl, c1, hfl, fun i t f x ht hf hx r => ?_⟩
    exact one_uniform { m with nodeString := nd.str } s0.state (hm s0.state) hex he [] a.group (c2 i t f x ht hf hx) r
  obtain ⟨_, _, _, _, hw, hmeas⟩ := EndToEndProps.C110_fluxes (EndToEndProps.sized_model { m with nodeString := nd.str } [])
    (fun (a : SurveyArg) (st : SState ℝ) (f : Name) (t x : ℝ) => ∀ r : σ, { m with nodeString := nd.str }.evaluateBandfluxesSingle [] a.group [t] [f] st r = .ok ([x], r)) hne hobs hbuilt hrad hsave hsim
  obtain ⟨ra', dec', obs, _, _, _, _, _, hcol, hrows⟩ := hmeas k so hso
  rw [hnest] at hi ⊢
  rw [hcol "mjd".toList (by decide)] at hi
  obtain ⟨a, ha, t, f, x, noise, err, _, _, hP, _, _, _, _, c1, c2, c3, _, _, c6⟩ := hrows i obs[i].1 obs[i].2 (List.getElem?_eq_getElem hi)
  refine ⟨obs[i].1, a, t, x, f, ha, c6, c1, c2, c3, fun w2 => ?_⟩
  rw [band_iff m hnd]
  refine ⟨rfl, a.group, [f], rfl, rfl, ?_⟩
  refine eachState_single e3 (by rw [e2]; exact b2) ?_
  rw [← hst]
  exact hP w2

/-! ### All rows together -/

theorem partOf_same {g g' : GState ℝ} (h : g'.states = g.states) (full : Name) : GState.partOf full g' = GState.partOf full g := by
  unfold GState.partOf GState.getItem
  rw [h]

theorem collect_same (gs : GState ℝ) (hf : Filled gs) : ∀ (ks : List Nat) (names : Option (List Name)) {ns : List Name} {out : List (GState ℝ)},
    GState.fromListCollect names ((ks.map (sampleOf gs)).map .graph) = .ok (ns, out) →
    ∃ out', GState.fromListCollect names (ks.map fun k => .dict ((sampleOf gs k).toDict.map fun q => (q.1, GState.Entry.val q.2))) = .ok (ns, out') ∧
      List.Forall₂ (fun g' g => g'.states = g.states ∧ g'.numSamples = g.numSamples) out' out
  | [], names, ns, out, h => by
    simp only [List.map_nil, GState.fromListCollect, Except.ok.injEq, Prod.mk.injEq] at h ⊢
    obtain ⟨rfl, rfl⟩ := h
    exact ⟨[], ⟨rfl, rfl⟩, .nil⟩
  | k :: ks, names, ns, out, h => by
    obtain ⟨s, e1, e2, e3⟩ := sample_exact hf (k := k)
    have hnames : s.allNames = (sampleOf gs k).allNames := by unfold GState.allNames; rw [e2]
    simp only [List.map_cons, GState.fromListCollect, bind, Except.bind] at h ⊢
    unfold restored at e1
    rw [e1]
    dsimp only
    rw [hnames]
    cases names with
    | none =>
      dsimp only at h ⊢
      cases hv : GState.fromListCollect (some (sampleOf gs k).allNames) ((ks.map (sampleOf gs)).map .graph) with
      | error e => rw [hv] at h; cases h
      | ok v =>
        obtain ⟨vn, vg⟩ := v
        rw [hv] at h
        obtain ⟨out', g1, g2⟩ := collect_same gs hf ks _ hv
        rw [g1]
        simp only [pure, Except.pure, Except.ok.injEq, Prod.mk.injEq] at h ⊢
        obtain ⟨rfl, rfl⟩ := h
        exact ⟨s :: out', ⟨rfl, rfl⟩, .cons ⟨e2, e3⟩ g2⟩
    | some ns0 =>
      dsimp only at h ⊢
      by_cases hc : (ns0.all fun x => (sampleOf gs k).allNames.contains x) && ((sampleOf gs k).allNames.all fun x => ns0.contains x)
      · rw [if_pos hc] at h ⊢
        cases hv : GState.fromListCollect (some ns0) ((ks.map (sampleOf gs)).map .graph) with
        | error e => rw [hv] at h; cases h
        | ok v =>
          obtain ⟨vn, vg⟩ := v
          rw [hv] at h
          obtain ⟨out', g1, g2⟩ := collect_same gs hf ks _ hv
          rw [g1]
          simp only [pure, Except.pure, Except.ok.injEq, Prod.mk.injEq] at h ⊢
          obtain ⟨rfl, rfl⟩ := h
          exact ⟨s :: out', ⟨rfl, rfl⟩, .cons ⟨e2, e3⟩ g2⟩
      · rw [if_neg hc] at h
        cases h

theorem mapM_same {gs gs' : List (GState ℝ)} (full : Name) (h : List.Forall₂ (fun g' g => g'.states = g.states ∧ g'.numSamples = g.numSamples) gs' gs) :
    gs'.mapM (GState.partOf full) = gs.mapM (GState.partOf full) := by
  induction h with
  | nil => rfl
  | cons a _ ih => rw [List.mapM_cons, List.mapM_cons, partOf_same a.1, ih]

theorem fill_same {gs gs' : List (GState ℝ)} (h : List.Forall₂ (fun g' g => g'.states = g.states ∧ g'.numSamples = g.numSamples) gs' gs) :
    ∀ (l : List Name) (s : GState ℝ), GState.fromListFill gs' s l = GState.fromListFill gs s l
  | [], s => rfl
  | full :: rest, s => by
    unfold GState.fromListFill
    have hc : GState.concatColumn gs' full = GState.concatColumn gs full := by
      unfold GState.concatColumn
      rw [mapM_same full h]
    rw [hc]
    simp only [fill_same h rest]

theorem fromList_same {gs : GState ℝ} (hf : Filled gs) (order : List Name → List Name) (ks : List Nat) {t : GState ℝ}
    (h : GState.fromList order ((ks.map (sampleOf gs)).map .graph) = .ok t) :
    GState.fromList order (ks.map fun k => .dict ((sampleOf gs k).toDict.map fun q => (q.1, GState.Entry.val q.2))) = .ok t := by
  unfold GState.fromList at h ⊢
  split at h
  · cases h
  · rename_i hne
    rw [if_neg (by simpa using hne)]
    simp only [bind, Except.bind] at h ⊢
    cases hc : GState.fromListCollect none ((ks.map (sampleOf gs)).map .graph) with
    | error e => rw [hc] at h; cases h
    | ok q =>
      obtain ⟨ns, out⟩ := q
      rw [hc] at h
      obtain ⟨out', g1, g2⟩ := collect_same gs hf ks none hc
      rw [g1]
      dsimp only at h ⊢
      have hsum : out'.map (·.numSamples) = out.map (·.numSamples) := by
        clear h hc g1
        induction g2 with
        | nil => rfl
        | cons a _ ih => rw [List.map_cons, List.map_cons, a.2, ih]
      rw [hsum]
      split at h
      · cases h
      · rename_i s0 hs0
        rw [fill_same g2]
        exact h

/-- C141: and the whole sampled state can be had again. For more than one object, `GraphState.from_list` of the `params` column (in whatever order the set of names is
iterated) is a state with one sample per row in which every parameter of every node reads as it did in the run. (For one object see `C141_restores`: `from_list` makes an
array of one value.) -/
theorem C141_all {isBand : Bool} {ev : Heap ℝ σ → PNode ℝ σ → SurveyArg → List ℝ → List Name → SState ℝ → σ → Except Err (List ℝ × σ)} {draw : σ → ℝ × σ} {H : Heap ℝ σ} (hG : GraphOK H) {root : NodeId} {objs : List NodeId} (hph : Physical H root) {n : Int}
    {args : List SurveyArg} {saveCols paramCols : List Name} {offset : Option (List (Option ℝ))} {w : σ} {out : Outcome σ}
    (hstd : ∀ c ∈ paramCols, colName c ∉ standardCols)
    (h : simulateFullWith isBand ev draw H root objs n args saveCols paramCols offset w = .ok out) (hn1 : n ≠ 1) (order : List Name → List Name) (hord : ∀ l, (order l).Perm l) :
    ∃ (dicts : List (Dict Name (Val ℝ))) (t : GState ℝ), out.table.get? "params".toList = some (dicts.map .dict) ∧
      GState.fromList order (dicts.map fun d => .dict (d.map fun q => (q.1, GState.Entry.val q.2))) = .ok t ∧ (t.numSamples : Int) = n ∧
      ∀ node p, readParam t node p = readParam out.sampled node p := by
  obtain ⟨hf, hn, l, hl, rfl⟩ := row_dict hG hph hstd h
  have hsh := (reachable_wf hf.reach).toShape
  have hne : out.sampled.numSamples ≠ 1 := by omega
  have hcell : ∀ n p rows, readParam out.sampled n p = some (.arr rows) → ∀ r ∈ rows, isCell r := by
    obtain ⟨run, nd, table, states, res, table', _, hsp, hsm, hnd, hp, hsim, hnest, hno, hfr⟩ := run_parts h
    obtain ⟨ra, dec, t0, z, samples, ss, ora, odec, ot0, hra, hdec, ht0, hz, hsamp, htb, hss, hora, hodec, hot0, _, rfl⟩ := prepare_parts hp
    rw [hsm] at hsh hne ⊢
    rw [iterate_ok run.gs hsh] at hsamp
    cases hsamp
    obtain ⟨m1, m2⟩ := mapM_get _ _ hss
    intro nn p rows hr r hmem
    obtain ⟨i, hi, rfl⟩ := List.getElem_of_mem hmem
    have hlook := hr
    rw [read_eq_look _ hsh] at hlook
    obtain ⟨l', e1, e2⟩ := hsh.rows hne _ _ _ hlook
    cases e1
    have hin : i < run.gs.numSamples := by omega
    obtain ⟨st, _, b2⟩ := m2 i (sampleOf run.gs i) (by rw [List.getElem?_map, List.getElem?_range hin]; rfl)
    have hv : look (sampleOf run.gs i) nn p = some rows[i] := by
      rw [← sampleValue_look hsh hin]
      unfold sampleValue
      rw [if_neg hne, hr]
      simp only [Option.bind_some, rowAt]
      exact List.getElem?_eq_getElem hi
    obtain ⟨y, hy⟩ := (sstate_get _ b2 nn p).2 _ hv
    intro rows' e
    rw [e] at hy
    cases hy
  obtain ⟨samples, t, h1, h2, h3, h4, h5⟩ := GraphProps.C05_roundtrip_partial order hord out.sampled hf.reach hne hcell
  rw [iterate_ok out.sampled hsh] at h1
  cases h1
  refine ⟨(List.range out.sampled.numSamples).map fun k => (sampleOf out.sampled k).toDict, t, by rw [hl, List.map_map]; rfl, ?_, by omega, h5⟩
  rw [List.map_map]
  exact fromList_same hf order _ h3

/-! ### A concrete run -/

/-- Two objects seen by two LSST surveys. -/
theorem ex_run (draw : Nat → ℝ × Nat) : ∃ out, simulateFull flat5 [] draw [exNode none []] 0 2 [EndToEndProps.lsstArg, EndToEndProps.lsstArg] [] [] (some [some 1, none]) 4 = .ok out ∧
    (∀ k : Nat, (k : Int) < 2 → sampleValue out.sampled "source".toList "redshift".toList k = some (.scalar 1)) ∧
    out.graph = [exNode (some 0) "source".toList] ∧ ∀ st (k : Nat), (k : Int) < 2 → StateOf out.sampled k st → Observes { flat5 with nodeString := "source".toList } [] st (fun _ _ => 10) := by
  obtain ⟨r, hsp, hst, hnum, hw⟩ := ex_sample
  obtain ⟨hsh, _⟩ := base_parts ex_graph ex_physical hsp (nd := exNode (some 0) "source".toList) rfl
  have hval : ∀ p x, exParams.get? p = some (.arr [.scalar x, .scalar x]) → ∀ k : Nat, (k : Int) < 2 →
      sampleValue r.gs "source".toList p k = some (.scalar x) := by
    intro p x hp k hk
    unfold sampleValue
    rw [if_neg (by omega), read_eq_look _ hsh]
    unfold look
    rw [hst]
    have : Dict.get? [("source".toList, exParams)] "source".toList = some exParams := by rw [Dict.get?_cons, if_pos rfl]
    rw [this, Option.bind_some, hp]
    have : k = 0 ∨ k = 1 := by omega
    rcases this with rfl | rfl <;> rfl
  have hobs : ∀ st (k : Nat), (k : Int) < 2 → StateOf r.gs k st → Observes { flat5 with nodeString := "source".toList } [] st (fun _ _ => 10) := by
    intro st k hk hso
    have hz := hso "source".toList redshiftKey
    have ht := hso "source".toList t0Key
    rw [show redshiftKey = "redshift".toList from rfl, hval "redshift".toList 1 rfl k hk] at hz
    rw [show t0Key = "t0".toList from rfl, hval "t0".toList 3 rfl k hk] at ht
    cases hp : st.get? "source".toList with
    | none => rw [hp] at hz; cases hz
    | some ps =>
      rw [hp] at hz ht
      have := EndToEndProps.C110_redshifted (m := { flat5 with nodeString := "source".toList }) ⟨rfl, rfl⟩ [] st ps 1 3 (fun _ _ => 5) (fun _ _ _ => 0)
        (by norm_num) (fun _ _ _ => rfl) (Or.inl ⟨rfl, rfl⟩) (by intro l h h1; cases h1) hp rfl hz (fun _ => ht)
      have e : (fun (t w : ℝ) => (1 + 1) * LCL.PhysSpec.stretch ({ flat5 with nodeString := "source".toList }.minwave st) ({ flat5 with nodeString := "source".toList }.maxwave st)
          ((fun (_ _ : ℝ) => (5 : ℝ)) (3 + (t - 3) / (1 + 1))) (fun _ _ _ => 0) (w / (1 + 1))) = fun _ _ => (10 : ℝ) := by
        funext t w
        simp only [LCL.PhysSpec.stretch, flat5, Option.filter_none]
        norm_num
      rw [e] at this
      exact this
  have harg : ∀ a ∈ [EndToEndProps.lsstArg, EndToEndProps.lsstArg], a = EndToEndProps.lsstArg := by intro a ha; simpa using ha
  obtain ⟨out, ho⟩ := C119_succeeds (m := flat5) (noKw := []) draw ex_graph ex_physical (n := 2) (by norm_num)
    (args := [EndToEndProps.lsstArg, EndToEndProps.lsstArg]) (paramCols := []) (offset := some [some 1, none]) hsp rfl (fun _ _ _ => 10)
    (by
      intro k hk node p x hx
      unfold sampleValue at hx
      rw [if_neg (by omega), read_eq_look _ hsh] at hx
      cases hl : look r.gs node p with
      | none => rw [hl] at hx; cases hx
      | some v =>
        have hl' := hl
        unfold look at hl'
        cases hd : r.gs.states.get? node with
        | none => rw [hd] at hl'; cases hl'
        | some d =>
          rw [hd, Option.bind_some] at hl'
          have h1 := Dict.mem_of_get? hd
          rw [hst, List.mem_singleton] at h1
          cases h1
          have h2 := Dict.mem_of_get? hl'
          simp only [exParams, List.mem_cons, List.not_mem_nil, or_false] at h2
          have : k = 0 ∨ k = 1 := by omega
          rw [hl] at hx
          rcases h2 with h2 | h2 | h2 | h2 <;> obtain ⟨-, rfl⟩ := Prod.mk.inj h2 <;> rcases this with rfl | rfl <;> exact Or.inr ⟨_, (Option.some.inj hx).symm⟩)
    (fun k hk => ⟨0, 0, hval _ _ rfl k hk, hval _ _ rfl k hk⟩) (Or.inr ⟨_, _, rfl, fun k hk => ⟨3, hval _ _ rfl k hk⟩⟩)
    (by simp)
    (by simp) (fun st k hk h => ⟨fun a _ => EndToEndProps.observes_in (hobs st k hk h) a.group, by intros; norm_num⟩)
    (by intro a ha; rw [harg a ha]; exact EndToEndProps.gGroup_grid) (by intro a ha; rw [harg a ha]; exact EndToEndProps.lsst_sound)
  have hgs : out.graph = [exNode (some 0) "source".toList] ∧ out.sampled = r.gs := by
    obtain ⟨run, _, _, _, _, _, _, h1, h2, _⟩ := run_parts ho
    rw [hsp] at h1
    have h3 := Except.ok.inj h1
    exact ⟨(congrArg Prod.fst h3).symm, h2.trans (congrArg (fun q => q.2.gs) h3).symm⟩
  exact ⟨out, ho, by rw [hgs.2]; exact hval "redshift".toList 1 rfl, hgs.1, by rw [hgs.2]; exact hobs⟩

/-- The second object's row gives back its redshift, and all its recorded fluxes. -/
example (draw : Nat → ℝ × Nat) : ∃ out d s, simulateFull flat5 [] draw [exNode none []] 0 2 [EndToEndProps.lsstArg, EndToEndProps.lsstArg] [] [] (some [some 1, none]) 4 = .ok out ∧
    RowParams out.table 1 d ∧ restored d = .ok s ∧ readParam s "source".toList "redshift".toList = some (.scalar 1) ∧
    ∀ i, i < (lightcurve out.nested 1 "mjd".toList).length → ∃ (t x : ℝ) (f : Name), (lightcurve out.nested 1 "flux_perfect".toList)[i]? = some (.num x) ∧
      askBandfluxes flat5 out.graph 0 (.group EndToEndProps.lsstArg.group) [t] (some [f]) (some s) 7 = .ok (out.graph, .one [x], 7) := by
  obtain ⟨out, ho, hz, _⟩ := ex_run draw
  obtain ⟨d, s, h1, h2, h3, h4⟩ := C141_restores ex_graph ex_physical (by simp) ho 1 (by norm_num)
  refine ⟨out, d, s, ho, h1, h2, (h4 _ _).trans (hz 1 (by norm_num)), fun i hi => ?_⟩
  have harg : ∀ a ∈ [EndToEndProps.lsstArg, EndToEndProps.lsstArg], a = EndToEndProps.lsstArg := by intro a ha; simpa using ha
  obtain ⟨j, a, t, x, f, g1, _, _, _, g5, g6⟩ := C141_flux flat5 (fun st kw ws => Or.inl ⟨fun _ => ws.map fun _ => 5, by simp, fun ts => rfl⟩) (by intro ex h; cases h) (by intro e h; cases h)
    ex_graph ex_physical (by simp) (by simp) (by intro a ha; rw [harg a ha]; exact EndToEndProps.lsst_built)
    (by intro a ha; rw [harg a ha]; exact ⟨1, rfl, by norm_num, by norm_num⟩) (by simp) ho 1 (by norm_num) h1 h2 i hi
  have ha := harg a (List.mem_of_getElem? g1)
  subst ha
  exact ⟨t, x, f, g5, g6 7⟩

end LCL.RecordedProps
