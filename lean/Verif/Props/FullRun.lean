import Verif.Spec.FullRun
import Verif.Props.EndToEnd
import Verif.Props.Generate
import Verif.Props.GraphState1
import Verif.Props.GraphState2

/-!
# Property C119 (a run of `simulate_lightcurves`, from the graph to the table of results)
-/

namespace LCL.FullRunProps
open LCL LCL.GraphSpec LCL.GraphLemmas LCL.NodeSpec LCL.EndToEnd LCL.EndToEndSpec LCL.FullRun LCL.FullRunSpec LCL.SimSpec LCL.ObsSpec LCL.PhotSpec
variable {V W σ : Type}

theorem mapM_get {β γ : Type} (f : β → Except Err γ) : ∀ (l : List β) {out : List γ}, l.mapM f = .ok out →
    out.length = l.length ∧ ∀ (i : Nat) x, l[i]? = some x → ∃ y, out[i]? = some y ∧ f x = .ok y
  | [], out, h => by cases h; exact ⟨rfl, by simp⟩
  | a :: l, out, h => by
    rw [List.mapM_cons] at h
    cases ha : f a with
    | error e => rw [ha] at h; cases h
    | ok y =>
      rw [ha] at h
      cases hl : l.mapM f with
      | error e => rw [hl] at h; cases h
      | ok ys =>
        rw [hl] at h
        cases h
        obtain ⟨h1, h2⟩ := mapM_get f l hl
        refine ⟨by simp [h1], ?_⟩
        intro i x hx
        cases i with
        | zero => simp at hx; subst hx; exact ⟨y, by simp, ha⟩
        | succ i => simpa using h2 i x (by simpa using hx)

theorem pval_ok {v : Val ℝ} {x : PVal ℝ} (h : pval v = .ok x) : asParam v = some x := by
  cases v <;> cases h <;> rfl

theorem nodeParams_get : ∀ (d : Dict Name (Val ℝ)) {p : Params ℝ}, nodeParams d = .ok p → ∀ k, p.get? k = (d.get? k).bind asParam
  | [], p, h, k => by cases h; rfl
  | (a, v) :: d, p, h, k => by
    unfold nodeParams at h
    split at h
    · cases h
    · rename_i x hx
      split at h
      · cases h
      · rename_i l hl
        cases h
        rw [Dict.get?_cons, Dict.get?_cons]
        split
        · exact (pval_ok hx).symm
        · exact nodeParams_get d hl k

theorem nodeParams_cells : ∀ (d : Dict Name (Val ℝ)) {p : Params ℝ}, nodeParams d = .ok p → ∀ k v, d.get? k = some v → ∃ x, asParam v = some x
  | [], p, h, k, v, hv => by cases hv
  | (a, w) :: d, p, h, k, v, hv => by
    unfold nodeParams at h
    split at h
    · cases h
    · rename_i x hx
      split at h
      · cases h
      · rename_i l hl
        rw [Dict.get?_cons] at hv
        split at hv
        · cases hv; exact ⟨x, pval_ok hx⟩
        · exact nodeParams_cells d hl k v hv

theorem sstate_get : ∀ (d : Dict Name (Dict Name (Val ℝ))) {st : SState ℝ}, sstateOf d = .ok st → ∀ n k,
    (st.get? n).bind (·.get? k) = ((d.get? n).bind (·.get? k)).bind asParam ∧
    ∀ v, (d.get? n).bind (·.get? k) = some v → ∃ x, asParam v = some x
  | [], st, h, n, k => by cases h; exact ⟨rfl, fun v hv => by cases hv⟩
  | (a, q) :: d, st, h, n, k => by
    unfold sstateOf at h
    split at h
    · cases h
    · rename_i p hp
      split at h
      · cases h
      · rename_i l hl
        cases h
        simp only [Dict.get?_cons]
        split
        · exact ⟨nodeParams_get q hp k, fun v hv => nodeParams_cells q hp k v hv⟩
        · exact sstate_get d hl n k

theorem simStates_get : ∀ (ss : List (SState ℝ)) (ra dec t0 : List (Option ℝ)), ra.length = ss.length → dec.length = ss.length → t0.length = ss.length →
    (simStates ss ra dec t0).length = ss.length ∧
    ∀ (k : Nat) s, (simStates ss ra dec t0)[k]? = some s → ss[k]? = some s.state ∧ ra[k]? = some s.ra ∧ dec[k]? = some s.dec ∧ t0[k]? = some s.t0
  | [], ra, dec, t0, _, _, _ => by simp [simStates]
  | a :: ss, [], _, _, h, _, _ => by simp at h
  | a :: ss, _ :: _, [], _, _, h, _ => by simp at h
  | a :: ss, _ :: _, _ :: _, [], _, _, h => by simp at h
  | a :: ss, r :: ra, d :: dec, t :: t0, h1, h2, h3 => by
    simp only [List.length_cons, Nat.add_right_cancel_iff] at h1 h2 h3
    obtain ⟨e1, e2⟩ := simStates_get ss ra dec t0 h1 h2 h3
    refine ⟨by simp [simStates, e1], ?_⟩
    intro k s hk
    cases k with
    | zero => simp only [simStates, List.getElem?_cons_zero, Option.some.injEq] at hk; subst hk; simp
    | succ k => simpa using e2 k s (by simpa [simStates] using hk)

/-! ### The sampled state -/

theorem sampleFrom_of {H H' : Heap ℝ σ} {root : NodeId} {objs : List NodeId} {n : Int} {w : σ} {r : Heap.Run ℝ σ} (hG : GraphOK H)
    (h : Heap.sampleParameters H root objs none n w = .ok (H', r)) :
    GraphOK H' ∧ Heap.sampleFrom H' (objs ++ [root]) none n w = .ok r ∧
      ∀ (i : Nat) nd, H[i]? = some nd → ∃ nd', H'[i]? = some nd' ∧ nd'.setters = nd.setters := by
  unfold Heap.sampleParameters at h
  split at h
  · cases h
  · rename_i nd hid
    simp only [bind, Except.bind] at h
    by_cases hp : nd.pos = none
    · simp only [hp, if_true] at h
      unfold Heap.setPositions at h
      simp only [bind, Except.bind] at h
      cases hv : Heap.visitAll H (root :: objs) with
      | error e => rw [hv] at h; cases h
      | ok order =>
        rw [hv] at h
        simp only [pure, Except.pure] at h
        cases h4 : Heap.sampleFrom (H.assign order) (objs ++ [root]) none n w with
        | error e => rw [h4] at h; cases h
        | ok r' =>
          rw [h4] at h; cases h
          refine ⟨GenerateProps.graphOK_assign hG order, h4, ?_⟩
          intro i nd hi
          unfold Heap.assign
          rw [List.getElem?_mapIdx, hi]
          simp only [Option.map_some, Option.some.injEq, exists_eq_left']
          split <;> rfl
    · simp only [hp, if_false] at h
      cases h4 : Heap.sampleFrom H (objs ++ [root]) none n w with
      | error e => rw [h4] at h; cases h
      | ok r' => rw [h4] at h; cases h; exact ⟨hG, h4, fun i nd hi => ⟨nd, hi, rfl⟩⟩

theorem sampleValue_look {s : GState ℝ} (hs : Shape s) {k : Nat} (hk : k < s.numSamples) (n p : Name) : sampleValue s n p k = look (sampleOf s k) n p := by
  unfold sampleValue
  rw [look_sampleOf, read_eq_look s hs]
  by_cases h1 : s.numSamples = 1
  · rw [if_pos h1]
    cases look s n p <;> simp [h1]
  · rw [if_neg h1]
    cases hl : look s n p with
    | none => rfl
    | some v =>
      obtain ⟨l, rfl, hlen⟩ := hs.rows h1 n p v hl
      simp only [Option.bind_some, Option.map_some, if_neg h1, rowAt, rowD]
      rw [List.getElem?_eq_getElem (by omega)]
      rfl

theorem toDict_iff {s : GState ℝ} (hs : Shape s) (key : Name) (v : Val ℝ) :
    s.toDict.get? key = some v ↔ ∃ n p, key = n ++ '.' :: p ∧ look s n p = some v := by
  have hdots : ∀ t ∈ flat s, hasDot t.1 = false ∧ hasDot t.2.1 = false := by
    rintro ⟨n, p, v⟩ hm
    exact look_dotfree hs ((mem_flat_iff s hs n p v).1 hm)
  rw [toDict_eq s hs]
  have hnd := keyed_nodup (flat s) (flat_nodup s hs) hdots
  rw [Dict.get?_iff_mem hnd]
  unfold keyed
  rw [List.mem_map]
  constructor
  · rintro ⟨⟨n, p, u⟩, hm, he⟩
    cases he
    exact ⟨n, p, rfl, (mem_flat_iff s hs n p u).1 hm⟩
  · rintro ⟨n, p, rfl, hr⟩
    exact ⟨(n, p, v), (mem_flat_iff s hs n p v).2 hr, rfl⟩

theorem paramColumn_look {s : GState ℝ} {nd : PNode ℝ σ} {name : Name} {v : Val ℝ} {l : List (Val ℝ)} (hv : look s nd.str name = some v)
    (h : paramColumn nd s name = .ok l) : l = GState.atLeast1d v := by
  unfold paramColumn at h
  have : Heap.getParam nd s name .none = .ok v := by
    unfold look at hv
    cases hd : s.states.get? nd.str with
    | none => simp [hd] at hv
    | some d =>
      simp only [hd, Option.bind_some] at hv
      unfold Heap.getParam GState.contains GState.getItem Dict.has
      simp [hd, hv]
  rw [this] at h
  cases h
  rfl

/-- The entries of `np.atleast_1d` of a parameter are its values in the samples, if every sample of it is a cell. -/
theorem column_get {s : GState ℝ} (hs : Shape s) {n p : Name} {v : Val ℝ} (hv : look s n p = some v)
    (hcell : ∀ k, k < s.numSamples → ∀ x, sampleValue s n p k = some x → ∃ y, asParam x = some y) :
    (GState.atLeast1d v).length = s.numSamples ∧ ∀ k, k < s.numSamples → (GState.atLeast1d v)[k]? = sampleValue s n p k := by
  have hr := read_eq_look s hs n p
  by_cases h1 : s.numSamples = 1
  · have hsv : sampleValue s n p 0 = some v := by unfold sampleValue; rw [if_pos h1, hr, hv]
    obtain ⟨y, hy⟩ := hcell 0 (by omega) v hsv
    have hl : GState.atLeast1d v = [v] := by cases v <;> first | rfl | cases hy
    rw [hl]
    refine ⟨by simp [h1], ?_⟩
    intro k hk
    have : k = 0 := by omega
    subst this
    rw [hsv]; rfl
  · obtain ⟨l, rfl, hlen⟩ := hs.rows h1 n p v hv
    refine ⟨hlen, ?_⟩
    intro k hk
    unfold sampleValue
    rw [if_neg h1, hr, hv]
    rfl

/-! ### The loop over the parameter columns -/

theorem paramLoop_spec {gs : GState ℝ} (hs : Shape gs) : ∀ (cs : List Name) (d : Dict Name (List RCell)) {out : Dict Name (List RCell)},
    paramLoop gs cs d = .ok out → (∀ name, name ∉ cs.map colName → out.get? name = d.get? name) ∧
    ((cs.map colName).Nodup → ∀ c ∈ cs, ∀ n p, c = n ++ '.' :: p → '.' ∉ n → '.' ∉ p →
      ∃ v, look gs n p = some v ∧ out.get? (colName c) = some ((GState.atLeast1d v).map .val))
  | [], d, out, h => by cases h; exact ⟨fun _ _ => rfl, fun _ c hc => by simp at hc⟩
  | c :: cs, d, out, h => by
    unfold paramLoop at h
    split at h
    · cases h
    · rename_i hc
      split at h
      · cases h
      · rename_i it hit
        obtain ⟨i1, i2⟩ := paramLoop_spec hs cs _ h
        refine ⟨?_, ?_⟩
        · intro name hn
          simp only [List.map_cons, List.mem_cons, not_or] at hn
          rw [i1 name hn.2, Dict.get?_set_ne d _ (Ne.symm hn.1)]
        · intro hnd c' hc' n p he hn hp
          simp only [List.map_cons, List.nodup_cons] at hnd
          rcases List.mem_cons.1 hc' with rfl | hc'
          · rw [i1 _ hnd.1, Dict.get?_set_self]
            have hr := read_eq_look gs hs n p
            unfold readParam at hr
            rw [← he, hit] at hr
            have hnode : ∀ d, it ≠ .node d := by
              rintro d rfl
              unfold GState.getItem at hit
              cases hg : gs.states.get? c' with
              | some d' =>
                have : c' ∈ gs.states.keys := by
                  by_contra hne
                  rw [← Dict.get?_eq_none_iff] at hne
                  rw [hne] at hg; cases hg
                have := hs.dotN _ this
                rw [he, hasDot_join] at this
                cases this
              | none =>
                rw [hg] at hit
                simp only at hit
                split at hit
                · split at hit
                  · split at hit
                    · cases hit
                    · split at hit <;> cases hit
                  · cases hit
                · split at hit
                  · split at hit <;> cases hit
                  · cases hit
            cases it with
            | node d => exact absurd rfl (hnode d)
            | value v => exact ⟨v, hr.symm, rfl⟩
            | pyNone =>
              exfalso
              unfold GState.getItem at hit
              split at hit
              · cases hit
              · rw [he, if_pos (hasDot_join n p)] at hit
                split at hit
                · split at hit
                  · cases hit
                  · split at hit <;> cases hit
                · cases hit
          · exact i2 hnd.2 c' hc' n p he hn hp
    · cases h

/-- What success of a run means, step by step. -/
theorem run_parts {isBand : Bool} {ev : Heap ℝ σ → PNode ℝ σ → SurveyArg → List ℝ → List Name → SState ℝ → σ → Except Err (List ℝ × σ)} {draw : σ → ℝ × σ} {H : Heap ℝ σ} {root : NodeId} {objs : List NodeId} {n : Int} {args : List SurveyArg}
    {saveCols paramCols : List Name} {offset : Option (List (Option ℝ))} {w : σ} {out : Outcome σ}
    (h : simulateFullWith isBand ev draw H root objs n args saveCols paramCols offset w = .ok out) :
    ∃ run nd table states res table', 0 < n ∧ Heap.sampleParameters H root objs none n w = .ok (out.graph, run) ∧ out.sampled = run.gs ∧ out.graph[root]? = some nd ∧
      prepareRun nd run.gs paramCols = .ok (table, states) ∧
      simulateWith isBand (ev out.graph nd) draw states args saveCols offset run.world = .ok (res, out.world) ∧ out.nested = res.nested ∧
      setNobs table res.nobs = .ok table' ∧ frame run.gs.numSamples table' = .ok out.table := by
  unfold simulateFullWith at h
  split at h
  · cases h
  · rename_i hn
    split at h
    · cases h
    · rename_i H' run hsp
      split at h
      · cases h
      · rename_i nd hnd
        split at h
        · cases h
        · rename_i table states hp
          split at h
          · cases h
          · rename_i res w' hsim
            split at h
            · cases h
            · rename_i table' hno
              split at h
              · cases h
              · rename_i table'' hfr
                cases h
                exact ⟨run, nd, table, states, res, table', by omega, hsp, rfl, hnd, hp, hsim, rfl, hno, hfr⟩

theorem prepare_parts {nd : PNode ℝ σ} {gs : GState ℝ} {paramCols : List Name} {table : Dict Name (List RCell)} {states : List SimState}
    (h : prepareRun nd gs paramCols = .ok (table, states)) :
    ∃ ra dec t0 z samples ss ora odec ot0, paramColumn nd gs "ra".toList = .ok ra ∧ paramColumn nd gs "dec".toList = .ok dec ∧
      paramColumn nd gs "t0".toList = .ok t0 ∧ paramColumn nd gs "redshift".toList = .ok z ∧ gs.iterate = .ok samples ∧
      paramLoop gs paramCols (objectCols gs.numSamples ra dec t0 z (samples.map GState.toDict)) = .ok table ∧
      samples.mapM (fun g => sstateOf g.states) = .ok ss ∧ ra.mapM optNum = .ok ora ∧ dec.mapM optNum = .ok odec ∧ t0.mapM optNum = .ok ot0 ∧
      (ora.length = gs.numSamples ∧ odec.length = gs.numSamples ∧ ot0.length = gs.numSamples) ∧ states = simStates ss ora odec ot0 := by
  unfold prepareRun at h
  simp only [bind, Except.bind] at h
  split at h
  · cases h
  rename_i ra hra
  split at h
  · cases h
  rename_i dec hdec
  split at h
  · cases h
  rename_i t0 ht0
  split at h
  · cases h
  rename_i z hz
  split at h
  · cases h
  rename_i samples hs
  split at h
  · cases h
  rename_i tb htb
  split at h
  · cases h
  rename_i ss hss
  split at h
  · cases h
  rename_i ora hora
  split at h
  · cases h
  rename_i odec hodec
  split at h
  · cases h
  rename_i ot0 hot0
  split at h
  · rename_i hl
    cases h
    exact ⟨ra, dec, t0, z, samples, ss, ora, odec, ot0, hra, hdec, ht0, hz, hs, htb, hss, hora, hodec, hot0, hl, rfl⟩
  · cases h

theorem optNum_ok {v : Val ℝ} {o : Option ℝ} (h : optNum v = .ok o) : v = (cellOf o) := by
  cases v <;> cases h <;> rfl

/-- The objects handed to the simulation are the samples. -/
theorem states_spec {nd : PNode ℝ σ} {gs : GState ℝ} (hs : Shape gs) {paramCols : List Name} {table : Dict Name (List RCell)} {states : List SimState}
    (hall : ∀ p ∈ ["ra".toList, "dec".toList, "t0".toList, "redshift".toList], ∃ v, look gs nd.str p = some v)
    (h : prepareRun nd gs paramCols = .ok (table, states)) :
    states.length = gs.numSamples ∧
    (∀ (k : Nat) s, states[k]? = some s → StateOf gs k s.state ∧
      sampleValue gs nd.str "ra".toList k = some (cellOf s.ra) ∧
      sampleValue gs nd.str "dec".toList k = some (cellOf s.dec) ∧
      sampleValue gs nd.str "t0".toList k = some (cellOf s.t0)) ∧
    (∀ n p v, look gs n p = some v → (GState.atLeast1d v).length = gs.numSamples ∧ ∀ k, k < gs.numSamples → (GState.atLeast1d v)[k]? = sampleValue gs n p k) ∧
    ∃ ra dec t0 z, look gs nd.str "ra".toList = some ra ∧ look gs nd.str "dec".toList = some dec ∧ look gs nd.str "t0".toList = some t0 ∧
      look gs nd.str "redshift".toList = some z ∧
      paramLoop gs paramCols (objectCols gs.numSamples (GState.atLeast1d ra) (GState.atLeast1d dec) (GState.atLeast1d t0) (GState.atLeast1d z)
        ((List.range gs.numSamples).map fun k => (sampleOf gs k).toDict)) = .ok table := by
  obtain ⟨ra, dec, t0, z, samples, ss, ora, odec, ot0, hra, hdec, ht0, hz, hsm, htb, hss, hora, hodec, hot0, ⟨l1, l2, l3⟩, rfl⟩ := prepare_parts h
  rw [iterate_ok gs hs] at hsm
  cases hsm
  obtain ⟨m1, m2⟩ := mapM_get _ _ hss
  have hlen : ss.length = gs.numSamples := by rw [m1]; simp
  have hst : ∀ k, k < gs.numSamples → ∃ st, ss[k]? = some st ∧ sstateOf (sampleOf gs k).states = .ok st := by
    intro k hk
    exact m2 k (sampleOf gs k) (by rw [List.getElem?_map, List.getElem?_range hk]; rfl)
  have hcell : ∀ n p k, k < gs.numSamples → ∀ x, sampleValue gs n p k = some x → ∃ y, asParam x = some y := by
    intro n p k hk x hx
    obtain ⟨st, _, e⟩ := hst k hk
    rw [sampleValue_look hs hk] at hx
    exact (sstate_get _ e n p).2 x hx
  have hcol : ∀ n p v, look gs n p = some v → (GState.atLeast1d v).length = gs.numSamples ∧ ∀ k, k < gs.numSamples → (GState.atLeast1d v)[k]? = sampleValue gs n p k :=
    fun n p v hv => column_get hs hv (hcell n p)
  obtain ⟨vra, hvra⟩ := hall "ra".toList (by simp)
  obtain ⟨vdec, hvdec⟩ := hall "dec".toList (by simp)
  obtain ⟨vt0, hvt0⟩ := hall "t0".toList (by simp)
  obtain ⟨vz, hvz⟩ := hall "redshift".toList (by simp)
  have e1 := paramColumn_look hvra hra
  have e2 := paramColumn_look hvdec hdec
  have e3 := paramColumn_look hvt0 ht0
  have e4 := paramColumn_look hvz hz
  subst e1; subst e2; subst e3; subst e4
  obtain ⟨s1, s2⟩ := simStates_get ss ora odec ot0 (by omega) (by omega) (by omega)
  have hopt : ∀ (v : Val ℝ) (n p : Name) (o : List (Option ℝ)), look gs n p = some v → (GState.atLeast1d v).mapM optNum = .ok o → ∀ (k : Nat) x, k < gs.numSamples → o[k]? = some x →
      sampleValue gs n p k = some (cellOf x) := by
    intro v n p o hv ho k x hk hx
    obtain ⟨q1, q2⟩ := hcol n p v hv
    obtain ⟨r1, r2⟩ := mapM_get _ _ ho
    obtain ⟨y, hy⟩ : ∃ y, (GState.atLeast1d v)[k]? = some y := ⟨_, List.getElem?_eq_getElem (by omega)⟩
    obtain ⟨x', hx', he⟩ := r2 k y hy
    rw [hx] at hx'
    cases hx'
    rw [← q2 k hk, hy, optNum_ok he]
  refine ⟨by rw [s1, hlen], ?_, hcol, vra, vdec, vt0, vz, hvra, hvdec, hvt0, hvz, ?_⟩
  · intro k s hk
    have hkn : k < gs.numSamples := by rw [← hlen, ← s1]; exact (List.getElem?_eq_some_iff.1 hk).1
    obtain ⟨a1, a2, a3, a4⟩ := s2 k s hk
    refine ⟨?_, hopt _ _ _ _ hvra hora k _ hkn a2, hopt _ _ _ _ hvdec hodec k _ hkn a3, hopt _ _ _ _ hvt0 hot0 k _ hkn a4⟩
    intro n p
    obtain ⟨st, b1, b2⟩ := hst k hkn
    rw [a1] at b1
    cases b1
    rw [sampleValue_look hs hkn]
    exact (sstate_get _ b2 n p).1
  · rw [List.map_map] at htb
    exact htb

/-! ### The claims -/

/-- C119. A successful `simulate_lightcurves(model, n, ...)` is based on one sampling of the model's graph with `n` samples: every parameter of every node the model
(and, for a composite, each of its objects) depends on satisfies its defining equation in the sampled state (constants, links to other nodes, results of functions of the sampled arguments). -/
theorem C119_sampled {isBand : Bool} {ev : Heap ℝ σ → PNode ℝ σ → SurveyArg → List ℝ → List Name → SState ℝ → σ → Except Err (List ℝ × σ)} {draw : σ → ℝ × σ} {H : Heap ℝ σ} (hG : GraphOK H) {root : NodeId} {objs : List NodeId} {n : Int} {args : List SurveyArg}
    {saveCols paramCols : List Name} {offset : Option (List (Option ℝ))} {w : σ} {out : Outcome σ}
    (h : simulateFullWith isBand ev draw H root objs n args saveCols paramCols offset w = .ok out) :
    0 < n ∧ (out.sampled.numSamples : Int) = n ∧ ∃ run, Heap.sampleParameters H root objs none n w = .ok (out.graph, run) ∧ run.gs = out.sampled ∧
      ∀ id nd, Reach out.graph (objs ++ [root]) id → out.graph[id]? = some nd → ∀ p st, (p, st) ∈ nd.setters → Equation out.graph out.sampled run.calls id nd p st.src := by
  obtain ⟨run, nd, table, states, res, table', hn, hsp, hsm, hnd, hp, hsim, hnest, hno, hfr⟩ := run_parts h
  obtain ⟨hG', hsf, _⟩ := sampleFrom_of hG hsp
  rw [hsm]
  refine ⟨hn, (NodeProps.C14_complete hG' (given := none) trivial hsf).1, run, hsp, rfl, ?_⟩
  intro id nd hr hid p st hm
  exact NodeProps.C12_equations hG' (given := none) trivial hsf id nd hr hid p st hm (by rintro ⟨v, hv⟩; exact hv)

theorem base_parts {H : Heap ℝ σ} (hG : GraphOK H) {root : NodeId} {objs : List NodeId} (hph : Physical H root) {n : Int} {w : σ} {H' : Heap ℝ σ} {run : Heap.Run ℝ σ}
    (hsp : Heap.sampleParameters H root objs none n w = .ok (H', run)) {nd : PNode ℝ σ} (hnd : H'[root]? = some nd) :
    Shape run.gs ∧ ∀ p ∈ ["ra".toList, "dec".toList, "t0".toList, "redshift".toList], ∃ v, look run.gs nd.str p = some v := by
  obtain ⟨hG', hsf, hset⟩ := sampleFrom_of hG hsp
  obtain ⟨hinv, _⟩ := NodeProps.sampleFrom_all hG' (given := none) trivial hsf
  refine ⟨hinv.wf.toShape, ?_⟩
  intro p hp
  obtain ⟨nd0, h0, h1⟩ := hph
  obtain ⟨nd', h2, h3⟩ := hset root nd0 h0
  rw [hnd] at h2; cases h2
  obtain ⟨st, hst⟩ := h1 p hp
  obtain ⟨v, hv, _⟩ := (NodeProps.C14_complete hG' (given := none) trivial hsf).2.1 root nd (Reach.root (by simp)) hnd (p, st) (by rw [h3]; exact hst)
  rw [read_eq_look _ hinv.wf.toShape] at hv
  exact ⟨v, hv⟩

theorem setNobs_spec {d d' : Dict Name (List RCell)} {nobs : List Nat} (h : setNobs d nobs = .ok d') :
    (∀ name, name ≠ "nobs".toList → d'.get? name = d.get? name) ∧
    ∃ l, d.get? "nobs".toList = some l ∧ nobs.length ≤ l.length ∧ d'.get? "nobs".toList = some (nobs.map .int ++ l.drop nobs.length) := by
  unfold setNobs at h
  split at h
  · cases h
  · rename_i l hl
    split at h
    · cases h
    · rename_i hlt
      cases h
      exact ⟨fun name hn => Dict.get?_set_ne d _ (Ne.symm hn), l, hl, by omega, Dict.get?_set_self _ _ _⟩

theorem frame_ok {n : Nat} {d d' : Dict Name (List RCell)} (h : frame n d = .ok d') : d' = d ∧ ∀ q ∈ d, q.2.length = n := by
  unfold frame at h
  split at h
  · rename_i ha
    cases h
    refine ⟨rfl, fun q hq => ?_⟩
    have := List.all_eq_true.1 ha q hq
    simpa using this
  · cases h

theorem nobs_length {isBand : Bool} {ev : SurveyArg → List ℝ → List Name → SState ℝ → σ → Except Err (List ℝ × σ)} {draw : σ → ℝ × σ} {states : List SimState} {args : List SurveyArg} {saveCols : List Name}
    {offset : Option (List (Option ℝ))} {w w' : σ} {res : SimResult} (h : simulateWith isBand ev draw states args saveCols offset w = .ok (res, w')) :
    res.nobs.length = states.length := by
  unfold simulateWith simulateLightcurves at h
  split at h
  · cases h
  split at h
  · cases h
  split at h
  · cases h
  split at h
  · cases h
  split at h
  · cases h
  split at h
  · cases h
  rename_i nd ns r hso
  split at h
  · cases h
  cases h
  have key : ∀ (states : List SimState) (idx : Nat) (nd nd' : Nested) (ns : List Nat) (r r' : σ) ps,
      simulateObjects (applyNoise draw) none saveCols ps idx states nd r = .ok (nd', ns, r') → ns.length = states.length := by
    intro states
    induction states with
    | nil => intro idx nd nd' ns r r' ps h; cases h; rfl
    | cons s ss ih =>
      intro idx nd nd' ns r r' ps h
      unfold simulateObjects at h
      split at h
      · cases h
      · split at h
        · cases h
        · rename_i h2
          cases h
          simp [ih _ _ _ _ _ _ _ h2]
  exact key _ _ _ _ _ _ _ _ hso

/-- C119, for parameter columns whose names (dots replaced by underscores) do not clash with each other or with a standard column. The table of objects has one row
per sample; `ra`, `dec`, `t0` and `z` of row `k` are the model's position, time and redshift in sample `k`, `params` is the dictionary of all parameters of all
nodes in sample `k`, and the column of a requested parameter `node.param` holds that parameter's value in sample `k`. Missing: clashing names, see the
counterexample. -/
theorem C119_table_partial {isBand : Bool} {ev : Heap ℝ σ → PNode ℝ σ → SurveyArg → List ℝ → List Name → SState ℝ → σ → Except Err (List ℝ × σ)} {draw : σ → ℝ × σ} {H : Heap ℝ σ} (hG : GraphOK H) {root : NodeId} {objs : List NodeId} (hph : Physical H root) {n : Int}
    {args : List SurveyArg} {saveCols paramCols : List Name} {offset : Option (List (Option ℝ))} {w : σ} {out : Outcome σ}
    (hstd : ∀ c ∈ paramCols, colName c ∉ standardCols) (hcl : (paramCols.map colName).Nodup)
    (h : simulateFullWith isBand ev draw H root objs n args saveCols paramCols offset w = .ok out) :
    ∃ nd, ∃ N : Nat, out.graph[root]? = some nd ∧ n = (N : Int) ∧
      IsColumn out.table "id" N (fun k => some (.int k)) ∧
      IsColumn out.table "ra" N (fun k => (sampleValue out.sampled nd.str "ra".toList k).map .val) ∧
      IsColumn out.table "dec" N (fun k => (sampleValue out.sampled nd.str "dec".toList k).map .val) ∧
      IsColumn out.table "t0" N (fun k => (sampleValue out.sampled nd.str "t0".toList k).map .val) ∧
      IsColumn out.table "z" N (fun k => (sampleValue out.sampled nd.str "redshift".toList k).map .val) ∧
      (∃ l, out.table.get? "params".toList = some l ∧ l.length = N ∧ ∀ k, k < N → ∃ d, l[k]? = some (.dict d) ∧
        ∀ key v, d.get? key = some v ↔ ∃ node p, key = node ++ '.' :: p ∧ sampleValue out.sampled node p k = some v) ∧
      ∀ c ∈ paramCols, ∀ node p, c = node ++ '.' :: p → '.' ∉ node → '.' ∉ p →
        ∃ l, out.table.get? (c.map fun x => if x = '.' then '_' else x) = some l ∧ l.length = N ∧
          ∀ k, k < N → l[k]? = (sampleValue out.sampled node p k).map .val := by
  obtain ⟨run, nd, table, states, res, table', hn, hsp, hsm, hnd, hp, hsim, hnest, hno, hfr⟩ := run_parts h
  obtain ⟨hs, hall⟩ := base_parts hG hph hsp hnd
  have hnum : (run.gs.numSamples : Int) = n := by
    obtain ⟨_, h1, _⟩ := C119_sampled hG h
    rw [hsm] at h1
    exact h1
  obtain ⟨t1, t2, hcol, ra, dec, t0, z, v1, v2, v3, v4, hloop⟩ := states_spec hs hall hp
  obtain ⟨p1, p2⟩ := paramLoop_spec hs _ _ hloop
  obtain ⟨n1, l, n2, n3, n4⟩ := setNobs_spec hno
  obtain ⟨rfl, f1⟩ := frame_ok hfr
  rw [hsm]
  have hget : ∀ name ∈ standardCols, name ≠ "nobs".toList → out.table.get? name =
      (objectCols run.gs.numSamples (GState.atLeast1d ra) (GState.atLeast1d dec) (GState.atLeast1d t0) (GState.atLeast1d z)
        ((List.range run.gs.numSamples).map fun k => (sampleOf run.gs k).toDict)).get? name := by
    intro name hname hne
    rw [n1 name hne, p1 name]
    intro hm
    obtain ⟨c, hc, rfl⟩ := List.mem_map.1 hm
    exact hstd c hc hname
  have hval : ∀ (name : String) (q : Name) (v : Val ℝ), out.table.get? name.toList = some ((GState.atLeast1d v).map .val) → look run.gs nd.str q = some v →
      IsColumn out.table name run.gs.numSamples (fun k => (sampleValue run.gs nd.str q k).map .val) := by
    intro name q v h1 h2
    obtain ⟨c1, c2⟩ := hcol _ _ _ h2
    refine ⟨_, h1, by simpa using c1, fun k hk => ?_⟩
    rw [List.getElem?_map, c2 k hk]
  refine ⟨nd, run.gs.numSamples, hnd, hnum.symm, ?_, ?_, ?_, ?_, ?_, ?_, ?_⟩
  · refine ⟨_, (hget "id".toList (by simp [standardCols]) (by decide)).trans rfl, by simp, fun k hk => ?_⟩
    rw [List.getElem?_map, List.getElem?_range hk]; rfl
  · exact hval _ _ _ ((hget "ra".toList (by simp [standardCols]) (by decide)).trans rfl) v1
  · exact hval _ _ _ ((hget "dec".toList (by simp [standardCols]) (by decide)).trans rfl) v2
  · exact hval _ _ _ ((hget "t0".toList (by simp [standardCols]) (by decide)).trans rfl) v3
  · exact hval _ _ _ ((hget "z".toList (by simp [standardCols]) (by decide)).trans rfl) v4
  · refine ⟨_, (hget "params".toList (by simp [standardCols]) (by decide)).trans rfl, by simp, fun k hk => ?_⟩
    refine ⟨(sampleOf run.gs k).toDict, by rw [List.getElem?_map, List.getElem?_map, List.getElem?_range hk]; rfl, ?_⟩
    intro key v
    rw [toDict_iff (sampleOf_shape run.gs hs k)]
    constructor
    · rintro ⟨a, b, e, hl⟩
      exact ⟨a, b, e, by rw [sampleValue_look hs hk]; exact hl⟩
    · rintro ⟨a, b, e, hl⟩
      exact ⟨a, b, e, by rw [sampleValue_look hs hk] at hl; exact hl⟩
  · intro c hc node p he hdn hdp
    obtain ⟨v, q1, q2⟩ := p2 hcl c hc node p he hdn hdp
    have hnob : colName c ≠ "nobs".toList := fun e => hstd c hc (by rw [e]; simp [standardCols])
    obtain ⟨c1, c2⟩ := hcol _ _ _ q1
    refine ⟨_, (n1 (colName c) hnob).trans q2, by simpa using c1, fun k hk => ?_⟩
    rw [List.getElem?_map, c2 k hk]

/-- C119, for any model: one that in a sampled state gives fluxes `P` allows. Row `k` counts and records exactly the observations that match the model's position and time
window in sample `k`, each with a flux `P` allows in sample `k` for its filter and time, that row's conditions and the next random number. -/
theorem C119_fluxes {isBand : Bool} {ev : Heap ℝ σ → PNode ℝ σ → SurveyArg → List ℝ → List Name → SState ℝ → σ → Except Err (List ℝ × σ)} {draw : σ → ℝ × σ} {H : Heap ℝ σ} (hG : GraphOK H) {root : NodeId} {objs : List NodeId} (hph : Physical H root) {n : Int}
    {args : List SurveyArg} {saveCols paramCols : List Name} {offset : Option (List (Option ℝ))} {w : σ} {out : Outcome σ} (P : SurveyArg → SState ℝ → Name → ℝ → ℝ → Prop)
    (hstd : ∀ c ∈ paramCols, colName c ∉ standardCols) (hne : args ≠ [])
    (hbuilt : ∀ a ∈ args, Built a.table)
    (hrad : ∀ a ∈ args, ∃ rad, a.table.radius = some rad ∧ 0 ≤ rad ∧ rad ≤ 180) (hsave : saveCols.Nodup ∧ ∀ c ∈ saveCols, c ∉ baseCols)
    (h : simulateFullWith isBand ev draw H root objs n args saveCols paramCols offset w = .ok out)
    (hev : ∀ nd, out.graph[root]? = some nd → EndToEndProps.Sized (ev out.graph nd))
    (hobs : ∀ nd st (k : Nat) a, out.graph[root]? = some nd → (k : Int) < n → StateOf out.sampled k st → a ∈ args → Fluxes (ev out.graph nd a) st (P a st)) :
    ∃ nd, ∃ (N : Nat) (w0 : σ) (nobs : List Nat), out.graph[root]? = some nd ∧ n = (N : Int) ∧ (∃ run, Heap.sampleParameters H root objs none n w = .ok (out.graph, run) ∧ run.world = w0) ∧
      nobs.length = N ∧ IsColumn out.table "nobs" N (fun k => nobs[k]?.map .int) ∧ out.world = afterDraws draw w0 nobs.sum ∧
      ∀ k, k < N → ∃ (st : SState ℝ) (ra dec : ℝ) (t0 : Option ℝ) (obs : List (Nat × Nat)), StateOf out.sampled k st ∧
        sampleValue out.sampled nd.str "ra".toList k = some (.scalar ra) ∧ sampleValue out.sampled nd.str "dec".toList k = some (.scalar dec) ∧
        sampleValue out.sampled nd.str "t0".toList k = some (cellOf t0) ∧
        nobs[k]? = some obs.length ∧ obs.Pairwise (fun x y => x.1 < y.1 ∨ x.1 = y.1 ∧ x.2 < y.2) ∧
        (∀ j q, (j, q) ∈ obs ↔ ∃ a rad, args[j]? = some a ∧ a.table.radius = some rad ∧
          Match a.table (ra, dec) rad (winLo offset t0) (winHi offset t0) q) ∧
        (∀ c ∈ baseCols, (lightcurve out.nested k c).length = obs.length) ∧
        ∀ (i j q : Nat), obs[i]? = some (j, q) → ∃ a, args[j]? = some a ∧
          MeasuredBy a j q (P a st) (drawAt draw w0 ((nobs.take k).sum + i)) (lightcurve out.nested k) i := by
  obtain ⟨run, nd, table, states, res, table', hn, hsp, hsm, hnd, hp, hsim, hnest, hno, hfr⟩ := run_parts h
  obtain ⟨hs, hall⟩ := base_parts hG hph hsp hnd
  have hnum : (run.gs.numSamples : Int) = n := by
    obtain ⟨_, h1, _⟩ := C119_sampled hG h
    rw [hsm] at h1
    exact h1
  obtain ⟨t1, t2, hcol, ra, dec, t0, z, v1, v2, v3, v4, hloop⟩ := states_spec hs hall hp
  obtain ⟨p1, _⟩ := paramLoop_spec hs _ _ hloop
  obtain ⟨n1, l, n2, n3, n4⟩ := setNobs_spec hno
  obtain ⟨rfl, f1⟩ := frame_ok hfr
  have hnl := nobs_length hsim
  have hobs' : ∀ s ∈ states, ∀ a ∈ args, Fluxes (ev out.graph nd a) s.state (P a s.state) := by
    intro s hmem a ha
    obtain ⟨k, hk, rfl⟩ := List.getElem_of_mem hmem
    refine hobs nd _ k a hnd (by rw [← hnum]; omega) ?_ ha
    rw [hsm]
    exact (t2 k _ (List.getElem?_eq_getElem hk)).1
  obtain ⟨_, _, _, _, hw, hmeas⟩ := EndToEndProps.C110_fluxes (hev nd hnd) P hne hobs' hbuilt hrad hsave hsim
  refine ⟨nd, run.gs.numSamples, run.world, res.nobs, hnd, hnum.symm, ⟨run, hsp, rfl⟩, by omega, ?_, hw, ?_⟩
  · rw [p1 "nobs".toList (by
      intro hm
      obtain ⟨c, hc, e⟩ := List.mem_map.1 hm
      exact hstd c hc (by rw [e]; simp [standardCols]))] at n2
    have e : l = List.replicate run.gs.numSamples (.int 0) := (Option.some.inj (n2.symm.trans rfl))
    subst e
    rw [show List.drop res.nobs.length (List.replicate run.gs.numSamples (RCell.int 0)) = [] by simp; omega, List.append_nil] at n4
    exact ⟨_, n4, by simp; omega, fun k hk => by rw [List.getElem?_map]⟩
  · intro k hk
    obtain ⟨s, hks⟩ : ∃ s, states[k]? = some s := ⟨_, List.getElem?_eq_getElem (by omega)⟩
    obtain ⟨a1, a2, a3, a4⟩ := t2 k s hks
    obtain ⟨ra, dec, obs, b1, b2, b3, b4, b5, b6, b7⟩ := hmeas k s hks
    rw [hsm, hnest]
    rw [b1] at a2
    rw [b2] at a3
    exact ⟨s.state, ra, dec, s.t0, obs, a1, a2, a3, a4, b3, b4, b5, b6, b7⟩

/-- C119. The lightcurves are those of the sampled objects: for a model whose observer-frame spectrum in a sampled state `st` is `Hs st t w` (at the wavelengths of the passbands), row `k` counts and records
exactly the observations that match the model's position and time window in sample `k`, each measuring, with that row's conditions and the next random
number, the spectrum in sample `k`. -/
theorem C119_lightcurves {m : SEDModel V W σ ℝ} {noKw : W} {draw : σ → ℝ × σ} {H : Heap ℝ σ} (hG : GraphOK H) {root : NodeId} (hph : Physical H root) {n : Int}
    {args : List SurveyArg} {saveCols paramCols : List Name} {offset : Option (List (Option ℝ))} {w : σ} {out : Outcome σ} (Hs : SState ℝ → ℝ → ℝ → ℝ)
    (hstd : ∀ c ∈ paramCols, colName c ∉ standardCols) (hne : args ≠ [])
    (hgrid : ∀ a ∈ args, ∀ f pb, a.group.getItem f = .ok pb → ExactGrid pb) (hbuilt : ∀ a ∈ args, Built a.table)
    (hrad : ∀ a ∈ args, ∃ rad, a.table.radius = some rad ∧ 0 ≤ rad ∧ rad ≤ 180) (hsave : saveCols.Nodup ∧ ∀ c ∈ saveCols, c ∉ baseCols)
    (h : simulateFull m noKw draw H root n args saveCols paramCols offset w = .ok out)
    (hobs : ∀ nd st (k : Nat) a, out.graph[root]? = some nd → (k : Int) < n → StateOf out.sampled k st → a ∈ args →
      ObservesIn { m with nodeString := nd.str } noKw st a.group (Hs st)) :
    ∃ nd, ∃ (N : Nat) (w0 : σ) (nobs : List Nat), out.graph[root]? = some nd ∧ n = (N : Int) ∧ (∃ run, Heap.sampleParameters H root [] none n w = .ok (out.graph, run) ∧ run.world = w0) ∧
      nobs.length = N ∧ IsColumn out.table "nobs" N (fun k => nobs[k]?.map .int) ∧ out.world = afterDraws draw w0 nobs.sum ∧
      ∀ k, k < N → ∃ (st : SState ℝ) (ra dec : ℝ) (t0 : Option ℝ) (obs : List (Nat × Nat)), StateOf out.sampled k st ∧
        sampleValue out.sampled nd.str "ra".toList k = some (.scalar ra) ∧ sampleValue out.sampled nd.str "dec".toList k = some (.scalar dec) ∧
        sampleValue out.sampled nd.str "t0".toList k = some (cellOf t0) ∧
        nobs[k]? = some obs.length ∧ obs.Pairwise (fun x y => x.1 < y.1 ∨ x.1 = y.1 ∧ x.2 < y.2) ∧
        (∀ j q, (j, q) ∈ obs ↔ ∃ a rad, args[j]? = some a ∧ a.table.radius = some rad ∧
          Match a.table (ra, dec) rad (winLo offset t0) (winHi offset t0) q) ∧
        (∀ c ∈ baseCols, (lightcurve out.nested k c).length = obs.length) ∧
        ∀ (i j q : Nat), obs[i]? = some (j, q) → ∃ a, args[j]? = some a ∧
          Measured a j q (Hs st) (drawAt draw w0 ((nobs.take k).sum + i)) (lightcurve out.nested k) i :=
  C119_fluxes hG hph (fun a st => BandFlux a.group (Hs st)) hstd hne hbuilt hrad hsave h (fun _ _ => EndToEndProps.sized_model _ _)
    (fun nd st k a h1 h2 h3 ha => EndToEndProps.fluxes_of (hobs nd st k a h1 h2 h3 ha) (hgrid a ha))

/-! ### Name clashes -/

theorem paramLoop_append {gs : GState ℝ} (c : Name) : ∀ (cs : List Name) (d : Dict Name (List RCell)) {out : Dict Name (List RCell)},
    paramLoop gs (cs ++ [c]) d = .ok out → ∃ d', paramLoop gs cs d = .ok d' ∧ paramLoop gs [c] d' = .ok out
  | [], d, out, h => ⟨d, rfl, h⟩
  | a :: cs, d, out, h => by
    rw [List.cons_append] at h
    unfold paramLoop at h
    unfold paramLoop
    split at h
    · cases h
    · split at h
      · cases h
      · rename_i h1 _ it h2
        obtain ⟨d', e1, e2⟩ := paramLoop_append c cs _ h
        refine ⟨d', e1, ?_⟩
        unfold paramLoop at e2
        exact e2
    · cases h

/-- C119, what is missing from the general statement: two different parameters whose names differ only in where the dot is, such as `gal_1.z` of a node `gal_1` and
`gal.1_z` of a node `gal`, are written to the same column; whatever the run, that column holds the parameter requested last, and the other one is in no column of its
own. -/
theorem C119_clash_counterexample {isBand : Bool} {ev : Heap ℝ σ → PNode ℝ σ → SurveyArg → List ℝ → List Name → SState ℝ → σ → Except Err (List ℝ × σ)} {draw : σ → ℝ × σ} {H : Heap ℝ σ} (hG : GraphOK H) {root : NodeId} {objs : List NodeId} (hph : Physical H root) {n : Int}
    {args : List SurveyArg} {saveCols : List Name} {offset : Option (List (Option ℝ))} {w : σ} {out : Outcome σ}
    (h : simulateFullWith isBand ev draw H root objs n args saveCols ["gal_1.z".toList, "gal.1_z".toList] offset w = .ok out) :
    ∃ l, out.table.get? "gal_1_z".toList = some l ∧ (∀ k : Nat, (k : Int) < n → l[k]? = (sampleValue out.sampled "gal".toList "1_z".toList k).map .val) ∧
      (out.table.get? "gal_1.z".toList = none ∧ out.table.get? "gal.1_z".toList = none) := by
  obtain ⟨run, nd, table, states, res, table', hn, hsp, hsm, hnd, hp, hsim, hnest, hno, hfr⟩ := run_parts h
  obtain ⟨hs, hall⟩ := base_parts hG hph hsp hnd
  have hnum : (run.gs.numSamples : Int) = n := by
    obtain ⟨_, h1, _⟩ := C119_sampled hG h
    rw [hsm] at h1
    exact h1
  obtain ⟨t1, t2, hcol, ra, dec, t0, z, v1, v2, v3, v4, hloop⟩ := states_spec hs hall hp
  obtain ⟨p1, _⟩ := paramLoop_spec hs _ _ hloop
  obtain ⟨d', e1, e2⟩ := paramLoop_append "gal.1_z".toList ["gal_1.z".toList] _ hloop
  obtain ⟨_, q⟩ := paramLoop_spec hs _ _ e2
  obtain ⟨v, q1, q2⟩ := q (by simp) "gal.1_z".toList (by simp) "gal".toList "1_z".toList (by decide) (by decide) (by decide)
  obtain ⟨n1, l, n2, n3, n4⟩ := setNobs_spec hno
  obtain ⟨rfl, f1⟩ := frame_ok hfr
  obtain ⟨c1, c2⟩ := hcol _ _ _ q1
  refine ⟨_, (n1 "gal_1_z".toList (by decide)).trans q2, ?_, ?_, ?_⟩
  · intro k hk
    rw [hsm, List.getElem?_map, c2 k (by omega)]
  · exact (n1 _ (by decide)).trans ((p1 _ (by decide)).trans rfl)
  · exact (n1 _ (by decide)).trans ((p1 _ (by decide)).trans rfl)

/-! ### Success -/

theorem mapM_ok {β γ : Type} (f : β → Except Err γ) : ∀ (l : List β), (∀ x ∈ l, ∃ y, f x = .ok y) → ∃ out, l.mapM f = .ok out
  | [], _ => ⟨[], rfl⟩
  | x :: l, h => by
    obtain ⟨y, hy⟩ := h x (by simp)
    obtain ⟨o, ho⟩ := mapM_ok f l (fun z hz => h z (by simp [hz]))
    exact ⟨y :: o, by rw [List.mapM_cons, hy]; simp only [bind, Except.bind, ho]; rfl⟩

theorem nodeParams_ok : ∀ (d : Dict Name (Val ℝ)), (∀ q ∈ d, ∃ x, asParam q.2 = some x) → ∃ p, nodeParams d = .ok p
  | [], _ => ⟨[], rfl⟩
  | (k, v) :: d, h => by
    obtain ⟨p, hp⟩ := nodeParams_ok d (fun q hq => h q (by simp [hq]))
    obtain ⟨x, hx⟩ := h (k, v) (by simp)
    have : pval v = .ok x := by cases v <;> cases hx <;> rfl
    exact ⟨(k, x) :: p, by unfold nodeParams; rw [this]; simp only [hp]⟩

theorem sstateOf_ok : ∀ (d : Dict Name (Dict Name (Val ℝ))), (∀ q ∈ d, ∀ r ∈ q.2, ∃ x, asParam r.2 = some x) → ∃ p, sstateOf d = .ok p
  | [], _ => ⟨[], rfl⟩
  | (k, v) :: d, h => by
    obtain ⟨p, hp⟩ := sstateOf_ok d (fun q hq => h q (by simp [hq]))
    obtain ⟨x, hx⟩ := nodeParams_ok v (h (k, v) (by simp))
    exact ⟨(k, x) :: p, by unfold sstateOf; rw [hx]; simp only [hp]⟩

theorem mem_of_mem_set {κ ν : Type} [DecidableEq κ] (k : κ) (v : ν) : ∀ (d : Dict κ ν) (q : κ × ν), q ∈ d.set k v → q = (k, v) ∨ q ∈ d
  | [], q, h => by
    have : q ∈ [(k, v)] := h
    simp at this; exact Or.inl this
  | (k', v') :: d, q, h => by
    unfold Dict.set at h
    split at h
    · rename_i e
      rcases List.mem_cons.1 h with h | h
      · exact Or.inl (by rw [h, e])
      · exact Or.inr (by simp [h])
    · rcases List.mem_cons.1 h with h | h
      · exact Or.inr (by simp [h])
      · rcases mem_of_mem_set k v d q h with h | h
        · exact Or.inl h
        · exact Or.inr (by simp [h])

theorem paramLoop_ok {gs : GState ℝ} (hs : Shape gs) : ∀ (cs : List Name) (d : Dict Name (List RCell)),
    (∀ c ∈ cs, ∃ n p v, c = n ++ '.' :: p ∧ look gs n p = some v ∧ (GState.atLeast1d v).length = gs.numSamples) →
    (∀ q ∈ d, q.2.length = gs.numSamples) → ∃ out, paramLoop gs cs d = .ok out ∧ ∀ q ∈ out, q.2.length = gs.numSamples
  | [], d, _, hd => ⟨d, rfl, hd⟩
  | c :: cs, d, hc, hd => by
    obtain ⟨n, p, v, he, hv, hl⟩ := hc c (by simp)
    have hit : gs.getItem c = .ok (.value v) := by
      have hr := read_eq_look gs hs n p
      unfold readParam at hr
      rw [← he, hv] at hr
      split at hr
      · rename_i v' e; cases hr; exact e
      · cases hr
    have hcon : gs.contains c = .ok (some true) := (GraphProps.C08_contains_iff_lookup gs c).2 (Or.inr ⟨v, hit⟩)
    obtain ⟨out, ho, hq⟩ := paramLoop_ok hs cs (d.set (colName c) (itemCells (.value v))) (fun c' h' => hc c' (by simp [h'])) (by
      intro q hq
      rcases mem_of_mem_set _ _ _ _ hq with rfl | hq
      · simpa [itemCells] using hl
      · exact hd q hq)
    exact ⟨out, by unfold paramLoop; rw [hcon]; simp only [hit]; exact ho, hq⟩

theorem paramColumn_ok {s : GState ℝ} {nd : PNode ℝ σ} {name : Name} {v : Val ℝ} (hv : look s nd.str name = some v) :
    paramColumn nd s name = .ok (GState.atLeast1d v) := by
  unfold paramColumn
  have : Heap.getParam nd s name .none = .ok v := by
    unfold look at hv
    cases hd : s.states.get? nd.str with
    | none => simp [hd] at hv
    | some d =>
      simp only [hd, Option.bind_some] at hv
      unfold Heap.getParam GState.contains GState.getItem Dict.has
      simp [hd, hv]
  rw [this]

/-- The preparation succeeds when all parameters are numbers or None and the requested parameters exist. -/
theorem prepare_ok {nd : PNode ℝ σ} {gs : GState ℝ} (hs : Shape gs) {paramCols : List Name}
    (hall : ∀ p ∈ ["ra".toList, "dec".toList, "t0".toList, "redshift".toList], ∃ v, look gs nd.str p = some v)
    (hcell : ∀ k, k < gs.numSamples → ∀ n p x, sampleValue gs n p k = some x → ∃ y, asParam x = some y)
    (hcols : ∀ c ∈ paramCols, ∃ n p v, c = n ++ '.' :: p ∧ readParam gs n p = some v) :
    ∃ table states, prepareRun nd gs paramCols = .ok (table, states) ∧ ∀ q ∈ table, q.2.length = gs.numSamples := by
  have hcol : ∀ n p v, look gs n p = some v → (GState.atLeast1d v).length = gs.numSamples ∧ ∀ k, k < gs.numSamples → (GState.atLeast1d v)[k]? = sampleValue gs n p k :=
    fun n p v hv => column_get hs hv (fun k hk => hcell k hk n p)
  obtain ⟨vra, hvra⟩ := hall "ra".toList (by simp)
  obtain ⟨vdec, hvdec⟩ := hall "dec".toList (by simp)
  obtain ⟨vt0, hvt0⟩ := hall "t0".toList (by simp)
  obtain ⟨vz, hvz⟩ := hall "redshift".toList (by simp)
  obtain ⟨table, htab, hlen⟩ := paramLoop_ok hs paramCols
    (objectCols gs.numSamples (GState.atLeast1d vra) (GState.atLeast1d vdec) (GState.atLeast1d vt0) (GState.atLeast1d vz)
      (((List.range gs.numSamples).map (sampleOf gs)).map GState.toDict))
    (by
      intro c hc
      obtain ⟨n, p, v, e, hv⟩ := hcols c hc
      rw [read_eq_look gs hs] at hv
      exact ⟨n, p, v, e, hv, (hcol n p v hv).1⟩)
    (by
      intro q hq
      simp only [objectCols, List.mem_cons, List.not_mem_nil, or_false] at hq
      rcases hq with rfl | rfl | rfl | rfl | rfl | rfl | rfl
      · simp
      · simpa using (hcol _ _ _ hvra).1
      · simpa using (hcol _ _ _ hvdec).1
      · simp
      · simpa using (hcol _ _ _ hvt0).1
      · simpa using (hcol _ _ _ hvz).1
      · simp)
  obtain ⟨ss, hss⟩ := mapM_ok (fun g : GState ℝ => sstateOf g.states) ((List.range gs.numSamples).map (sampleOf gs)) (by
    intro g hg
    obtain ⟨k, hk, rfl⟩ := List.mem_map.1 hg
    rw [List.mem_range] at hk
    apply sstateOf_ok
    rintro ⟨n, d⟩ hq ⟨p, x⟩ hr
    have hsh := sampleOf_shape gs hs k
    have h1 : (sampleOf gs k).states.get? n = some d := Dict.get?_of_mem hsh.nodes hq
    have h2 : d.get? p = some x := Dict.get?_of_mem (hsh.vars n d h1) hr
    have h3 : sampleValue gs n p k = some x := by
      rw [sampleValue_look hs hk]
      unfold look
      rw [h1]; exact h2
    exact hcell k hk n p x h3)
  have hopt : ∀ n p v, look gs n p = some v → ∃ o, (GState.atLeast1d v).mapM optNum = .ok o := by
    intro n p v hv
    apply mapM_ok
    intro x hx
    obtain ⟨k, hk, rfl⟩ := List.getElem_of_mem hx
    obtain ⟨a, b⟩ := hcol n p v hv
    obtain ⟨y, hy⟩ := hcell k (by omega) n p (GState.atLeast1d v)[k] (by rw [← b k (by omega)]; exact List.getElem?_eq_getElem hk)
    cases hz : (GState.atLeast1d v)[k] with
    | none => exact ⟨none, rfl⟩
    | scalar x => exact ⟨some x, rfl⟩
    | arr l => rw [hz] at hy; cases hy
  obtain ⟨ora, hora⟩ := hopt _ _ _ hvra
  obtain ⟨odec, hodec⟩ := hopt _ _ _ hvdec
  obtain ⟨ot0, hot0⟩ := hopt _ _ _ hvt0
  refine ⟨table, simStates ss ora odec ot0, ?_, hlen⟩
  unfold prepareRun
  simp only [bind, Except.bind]
  rw [paramColumn_ok hvra, paramColumn_ok hvdec, paramColumn_ok hvt0, paramColumn_ok hvz, iterate_ok gs hs]
  simp only [htab, hss, hora, hodec, hot0]
  rw [if_pos ⟨by rw [(mapM_get _ _ hora).1]; exact (hcol _ _ _ hvra).1, by rw [(mapM_get _ _ hodec).1]; exact (hcol _ _ _ hvdec).1,
    by rw [(mapM_get _ _ hot0).1]; exact (hcol _ _ _ hvt0).1⟩]
  rfl

/-- C119. A run succeeds, for any number of samples and any model: if sampling the graph succeeds and every sampled parameter is a number or None, the position is given
(and `t0`, if a time window is asked for), the requested parameters exist and do not have the name of a standard column, the model answers in every sample for the
filters of the surveys with non-negative fluxes, and the surveys are sound LSST surveys (one at most for a BandfluxModel). -/
theorem C119_answers {isBand : Bool} {ev : Heap ℝ σ → PNode ℝ σ → SurveyArg → List ℝ → List Name → SState ℝ → σ → Except Err (List ℝ × σ)} (draw : σ → ℝ × σ) {H : Heap ℝ σ} (hG : GraphOK H) {root : NodeId} {objs : List NodeId} (hph : Physical H root) {n : Int} (hn : 0 < n)
    {args : List SurveyArg} {paramCols : List Name} {offset : Option (List (Option ℝ))} {w : σ} {H' : Heap ℝ σ} {run : Heap.Run ℝ σ} {nd : PNode ℝ σ}
    (hsp : Heap.sampleParameters H root objs none n w = .ok (H', run)) (hnd : H'[root]? = some nd) (hband : isBand = false ∨ args.length ≤ 1)
    (hcell : ∀ k : Nat, (k : Int) < n → ∀ node p x, sampleValue run.gs node p k = some x → x = .none ∨ ∃ y, x = .scalar y)
    (hat : ∀ k : Nat, (k : Int) < n → ∃ ra dec, sampleValue run.gs nd.str "ra".toList k = some (.scalar ra) ∧ sampleValue run.gs nd.str "dec".toList k = some (.scalar dec))
    (hoff : offset = none ∨ ∃ before after, offset = some [before, after] ∧ ∀ k : Nat, (k : Int) < n → ∃ t, sampleValue run.gs nd.str "t0".toList k = some (.scalar t))
    (hcols : ∀ c ∈ paramCols, ∃ node p v, c = node ++ '.' :: p ∧ readParam run.gs node p = some v) (hstd : ∀ c ∈ paramCols, colName c ∉ standardCols)
    (hans : ∀ st (k : Nat), (k : Int) < n → StateOf run.gs k st → ∀ a ∈ args, ∀ F : List Name, a.table.cols.get? "filter".toList = some (F.map .str) →
      EndToEndProps.Answers (ev H' nd a) st F) (hsound : ∀ a ∈ args, EndToEndProps.SoundTable a) :
    ∃ out, simulateFullWith isBand ev draw H root objs n args [] paramCols offset w = .ok out := by
  obtain ⟨hs, hall⟩ := base_parts hG hph hsp hnd
  have hnum : (run.gs.numSamples : Int) = n := by
    obtain ⟨hG', hsf, _⟩ := sampleFrom_of hG hsp
    exact (NodeProps.C14_complete hG' (given := none) trivial hsf).1
  obtain ⟨table, states, hp, hlen⟩ := prepare_ok (nd := nd) hs (paramCols := paramCols) hall (by
    intro k hk node p x hx
    rcases hcell k (by omega) node p x hx with rfl | ⟨y, rfl⟩
    · exact ⟨_, rfl⟩
    · exact ⟨_, rfl⟩) hcols
  obtain ⟨t1, t2, hcol, ra, dec, t0, z, v1, v2, v3, v4, hloop⟩ := states_spec hs hall hp
  obtain ⟨p1, _⟩ := paramLoop_spec hs _ _ hloop
  have hmem : ∀ s ∈ states, ∃ k : Nat, (k : Int) < n ∧ states[k]? = some s := by
    intro s hs
    obtain ⟨k, hk, rfl⟩ := List.getElem_of_mem hs
    exact ⟨k, by omega, List.getElem?_eq_getElem hk⟩
  have hnum' : ∀ {o : Option ℝ} {x : ℝ}, (some (Val.scalar x) : Option (Val ℝ)) = some (cellOf o) → o = some x := by
    intro o x h
    cases o with
    | none => cases h
    | some y => cases h; rfl
  obtain ⟨res, w', hsim⟩ := EndToEndProps.C110_answers (ev := ev H' nd) (isBand := isBand) draw (states := states) (args := args) (offset := offset)
    (by intro e; rw [e] at t1; simp at t1; omega)
    hband (by intro s hs; obtain ⟨k, hk, h1⟩ := hmem s hs; exact hans _ k hk (t2 k s h1).1) hsound
    (by
      intro s hs
      obtain ⟨k, hk, h1⟩ := hmem s hs
      obtain ⟨_, a2, a3, _⟩ := t2 k s h1
      obtain ⟨r, d, b1, b2⟩ := hat k hk
      exact ⟨r, d, hnum' (b1.symm.trans a2), hnum' (b2.symm.trans a3)⟩)
    (by
      rcases hoff with h | ⟨b, a, h, h'⟩
      · exact Or.inl h
      · refine Or.inr ⟨b, a, h, ?_⟩
        intro s hs
        obtain ⟨k, hk, h1⟩ := hmem s hs
        obtain ⟨_, _, _, a4⟩ := t2 k s h1
        obtain ⟨t, ht⟩ := h' k hk
        exact ⟨t, hnum' (ht.symm.trans a4)⟩) run.world
  have hnl := nobs_length hsim
  have hnob : table.get? "nobs".toList = some (List.replicate run.gs.numSamples (.int 0)) := by
    rw [p1 "nobs".toList (by
      intro hm
      obtain ⟨c, hc, e⟩ := List.mem_map.1 hm
      exact hstd c hc (by rw [e]; simp [standardCols]))]
    rfl
  have hset : setNobs table res.nobs = .ok (table.set "nobs".toList (res.nobs.map .int ++ (List.replicate run.gs.numSamples (RCell.int 0)).drop res.nobs.length)) := by
    unfold setNobs
    rw [hnob]
    simp only
    rw [if_neg (by simp; omega)]
  have hfr : frame run.gs.numSamples (table.set "nobs".toList (res.nobs.map .int ++ (List.replicate run.gs.numSamples (RCell.int 0)).drop res.nobs.length)) =
      .ok (table.set "nobs".toList (res.nobs.map .int ++ (List.replicate run.gs.numSamples (RCell.int 0)).drop res.nobs.length)) := by
    unfold frame
    rw [if_pos]
    rw [List.all_eq_true]
    intro q hq
    rcases mem_of_mem_set _ _ _ _ hq with rfl | hq
    · simp; omega
    · simpa using hlen q hq
  refine ⟨⟨H', run.gs, table.set "nobs".toList (res.nobs.map .int ++ (List.replicate run.gs.numSamples (RCell.int 0)).drop res.nobs.length), res.nested, w'⟩, ?_⟩
  unfold simulateFullWith
  rw [if_neg (by omega), hsp]
  simp only [hnd, hp, hsim, hset, hfr]

/-- C119. A run succeeds, for any number of samples: if sampling the graph succeeds and every sampled parameter is a number or None, the position is given (and `t0`, if a
time window is asked for), the requested parameters exist and do not have the name of a standard column, the spectrum in every sample is defined and non-negative
and the surveys are sound LSST surveys. -/
theorem C119_succeeds {m : SEDModel V W σ ℝ} {noKw : W} (draw : σ → ℝ × σ) {H : Heap ℝ σ} (hG : GraphOK H) {root : NodeId} (hph : Physical H root) {n : Int} (hn : 0 < n)
    {args : List SurveyArg} {paramCols : List Name} {offset : Option (List (Option ℝ))} {w : σ} {H' : Heap ℝ σ} {run : Heap.Run ℝ σ} {nd : PNode ℝ σ}
    (hsp : Heap.sampleParameters H root [] none n w = .ok (H', run)) (hnd : H'[root]? = some nd) (Hs : SState ℝ → ℝ → ℝ → ℝ)
    (hcell : ∀ k : Nat, (k : Int) < n → ∀ node p x, sampleValue run.gs node p k = some x → x = .none ∨ ∃ y, x = .scalar y)
    (hat : ∀ k : Nat, (k : Int) < n → ∃ ra dec, sampleValue run.gs nd.str "ra".toList k = some (.scalar ra) ∧ sampleValue run.gs nd.str "dec".toList k = some (.scalar dec))
    (hoff : offset = none ∨ ∃ before after, offset = some [before, after] ∧ ∀ k : Nat, (k : Int) < n → ∃ t, sampleValue run.gs nd.str "t0".toList k = some (.scalar t))
    (hcols : ∀ c ∈ paramCols, ∃ node p v, c = node ++ '.' :: p ∧ readParam run.gs node p = some v) (hstd : ∀ c ∈ paramCols, colName c ∉ standardCols)
    (hobs : ∀ st (k : Nat), (k : Int) < n → StateOf run.gs k st → (∀ a ∈ args, ObservesIn { m with nodeString := nd.str } noKw st a.group (Hs st)) ∧ ∀ t w, 0 ≤ Hs st t w)
    (hgrid : ∀ a ∈ args, ∀ f pb, a.group.getItem f = .ok pb → ExactGrid pb) (hsound : ∀ a ∈ args, EndToEndProps.SoundOpsim a) :
    ∃ out, simulateFull m noKw draw H root n args [] paramCols offset w = .ok out :=
  C119_answers draw hG hph hn hsp hnd (Or.inl rfl) hcell hat hoff hcols hstd
    (fun st k h1 h2 a ha => EndToEndProps.answers_of (hsound a ha) ((hobs st k h1 h2).1 a ha) (hobs st k h1 h2).2 (hgrid a ha)) (fun a ha => (hsound a ha).table)

/-! ### A concrete run -/

/-- A source at (0, 0), redshift 1, t0 = 3. -/
noncomputable def exSetters : Dict Name (Setter ℝ) :=
  [("ra".toList, ⟨.const (.scalar 0), true⟩), ("dec".toList, ⟨.const (.scalar 0), true⟩), ("redshift".toList, ⟨.const (.scalar 1), true⟩), ("t0".toList, ⟨.const (.scalar 3), true⟩)]

noncomputable def exNode (pos : Option Nat) (str : Name) : PNode ℝ Nat :=
  ⟨"ConstModel".toList, some "source".toList, false, none, none, [], pos, str, exSetters, [], []⟩

theorem exNode_setters (p s) : (exNode p s).setters = exSetters := rfl

noncomputable def exParams : Dict Name (Val ℝ) :=
  [("ra".toList, .arr [.scalar 0, .scalar 0]), ("dec".toList, .arr [.scalar 0, .scalar 0]), ("redshift".toList, .arr [.scalar 1, .scalar 1]), ("t0".toList, .arr [.scalar 3, .scalar 3])]

theorem ex_sample : ∃ r, Heap.sampleParameters [exNode none []] 0 [] none 2 (4 : Nat) = .ok ([exNode (some 0) "source".toList], r) ∧
  r.gs.states = [("source".toList, exParams)] ∧ r.gs.numSamples = 2 ∧ r.world = 4 := by
  refine ⟨_, rfl, rfl, rfl, rfl⟩

theorem ex_keys : exSetters.keys = ["ra".toList, "dec".toList, "redshift".toList, "t0".toList] := by
  simp only [exSetters, Dict.keys_cons, Dict.keys_nil]

theorem ex_src (q) (hq : q ∈ (exNode none []).setters) : ∃ x, q.2.src = .const (.scalar x) := by
  rw [exNode_setters] at hq; simp only [exSetters, List.mem_cons, List.not_mem_nil, or_false] at hq
  rcases hq with hq | hq | hq | hq <;> exact ⟨_, by rw [hq]⟩

theorem ex_graph : GraphOK [exNode none []] where
  keys := by intro nd h; rw [List.mem_singleton] at h; subst h; rw [exNode_setters, ex_keys]; decide
  links := by
    intro nd h q hq d hd; rw [List.mem_singleton] at h; subst h
    obtain ⟨x, hx⟩ := ex_src q hq
    rw [hx] at hd; cases hd
  outs := by
    intro nd h p; rw [List.mem_singleton] at h; subst h
    constructor
    · intro hp; exact absurd hp (by simp [show (exNode none []).outputs = [] from rfl])
    · rintro ⟨st, q, hq, e⟩
      obtain ⟨x, hx⟩ := ex_src _ hq
      rw [e] at hx; cases hx
  outsNodup := by intro nd h; rw [List.mem_singleton] at h; subst h; exact List.nodup_nil
  plain := by intro nd h _; rw [List.mem_singleton] at h; subst h; rfl
  args := by intro nd h a ha; rw [List.mem_singleton] at h; subst h; cases ha

theorem ex_physical : FullRunSpec.Physical [exNode none []] 0 := by
  refine ⟨_, rfl, ?_⟩
  intro p hp
  have : p ∈ (exNode none []).setters.keys := by
    rw [exNode_setters, ex_keys]
    simp only [List.mem_cons, List.not_mem_nil, or_false] at hp ⊢
    tauto
  obtain ⟨q, hq, rfl⟩ := List.mem_map.1 this
  exact ⟨q.2, hq⟩

/-- Two objects seen by two LSST surveys: the run succeeds, the column of the requested redshift holds 1 for both, and both objects have as many entries in their lightcurves as
the table says. -/
example (draw : Nat → ℝ × Nat) : ∃ out, simulateFull EndToEndProps.constModel () draw [exNode none []] 0 2 [EndToEndProps.lsstArg, EndToEndProps.lsstArg] []
      ["source.redshift".toList] (some [some 1, none]) 4 = .ok out ∧
    (∃ l, out.table.get? "source_redshift".toList = some l ∧ l[1]? = some (.val (.scalar 1))) ∧
    (∃ nobs : List Nat, IsColumn out.table "nobs" 2 (fun k => nobs[k]?.map .int) ∧ (lightcurve out.nested 1 "flux".toList).length = nobs[1]?.getD 7) := by
  obtain ⟨r, hsp, hst, hnum, hw⟩ := ex_sample
  obtain ⟨hsh, _⟩ := base_parts ex_graph ex_physical hsp (nd := exNode (some 0) "source".toList) rfl
  have hval : ∀ p x, exParams.get? p = some (.arr [.scalar x, .scalar x]) → ∀ k : Nat, (k : Int) < 2 →
      sampleValue r.gs "source".toList p k = some (.scalar x) := by
    intro p x hp k hk
    unfold sampleValue
    rw [if_neg (by omega), read_eq_look _ hsh]
    unfold look
    rw [hst]
    have : Dict.get? [("source".toList, exParams)] "source".toList = some exParams := by rw [Dict.get?_cons, if_pos rfl]
    rw [this, Option.bind_some, hp]
    have : k = 0 ∨ k = 1 := by omega
    rcases this with rfl | rfl <;> rfl
  have hobs : ∀ st (k : Nat), (k : Int) < 2 → StateOf r.gs k st → Observes { EndToEndProps.constModel with nodeString := "source".toList } () st (fun _ _ => 10) := by
    intro st k hk hso
    have hz := hso "source".toList redshiftKey
    have ht := hso "source".toList t0Key
    rw [show redshiftKey = "redshift".toList from rfl, hval "redshift".toList 1 rfl k hk] at hz
    rw [show t0Key = "t0".toList from rfl, hval "t0".toList 3 rfl k hk] at ht
    cases hp : st.get? "source".toList with
    | none => rw [hp] at hz; cases hz
    | some ps =>
      rw [hp] at hz ht
      have := EndToEndProps.C110_redshifted (m := EndToEndProps.constModel) ⟨rfl, rfl⟩ () st ps 1 3 (fun _ _ => 5) (fun _ _ _ => 0)
        (by norm_num) (fun _ _ _ => rfl) (Or.inl ⟨rfl, rfl⟩) (by intro l h h1; cases h1) hp rfl hz (fun _ => ht)
      have e : (fun (t w : ℝ) => (1 + 1) * LCL.PhysSpec.stretch (EndToEndProps.constModel.minwave st) (EndToEndProps.constModel.maxwave st)
          ((fun (_ _ : ℝ) => (5 : ℝ)) (3 + (t - 3) / (1 + 1))) (fun _ _ _ => 0) (w / (1 + 1))) = fun _ _ => (10 : ℝ) := by
        funext t w
        simp only [LCL.PhysSpec.stretch, EndToEndProps.constModel, Option.filter_none]
        norm_num
      rw [e] at this
      exact this
  have harg : ∀ a ∈ [EndToEndProps.lsstArg, EndToEndProps.lsstArg], a = EndToEndProps.lsstArg := by intro a ha; simpa using ha
  have hstd : ∀ c ∈ ["source.redshift".toList], colName c ∉ standardCols := by intro c hc; rw [List.mem_singleton] at hc; subst hc; decide
  obtain ⟨out, ho⟩ := C119_succeeds (m := EndToEndProps.constModel) (noKw := ()) draw ex_graph ex_physical (n := 2) (by norm_num)
    (args := [EndToEndProps.lsstArg, EndToEndProps.lsstArg]) (paramCols := ["source.redshift".toList]) (offset := some [some 1, none]) hsp rfl (fun _ _ _ => 10)
    (by
      intro k hk node p x hx
      unfold sampleValue at hx
      rw [if_neg (by omega), read_eq_look _ hsh] at hx
      cases hl : look r.gs node p with
      | none => rw [hl] at hx; cases hx
      | some v =>
        have hl' := hl
        unfold look at hl'
        cases hd : r.gs.states.get? node with
        | none => rw [hd] at hl'; cases hl'
        | some d =>
          rw [hd, Option.bind_some] at hl'
          have h1 := Dict.mem_of_get? hd
          rw [hst, List.mem_singleton] at h1
          cases h1
          have h2 := Dict.mem_of_get? hl'
          simp only [exParams, List.mem_cons, List.not_mem_nil, or_false] at h2
          have : k = 0 ∨ k = 1 := by omega
          rw [hl] at hx
          rcases h2 with h2 | h2 | h2 | h2 <;> obtain ⟨-, rfl⟩ := Prod.mk.inj h2 <;> rcases this with rfl | rfl <;> exact Or.inr ⟨_, (Option.some.inj hx).symm⟩)
    (fun k hk => ⟨0, 0, hval _ _ rfl k hk, hval _ _ rfl k hk⟩) (Or.inr ⟨_, _, rfl, fun k hk => ⟨3, hval _ _ rfl k hk⟩⟩)
    (by
      intro c hc; rw [List.mem_singleton] at hc; subst hc
      refine ⟨"source".toList, "redshift".toList, .arr [.scalar 1, .scalar 1], by decide, ?_⟩
      rw [read_eq_look _ hsh]
      unfold look
      rw [hst]; rfl)
    hstd (fun st k hk h => ⟨fun a _ => EndToEndProps.observes_in (hobs st k hk h) a.group, by intros; norm_num⟩)
    (by intro a ha; rw [harg a ha]; exact EndToEndProps.gGroup_grid) (by intro a ha; rw [harg a ha]; exact EndToEndProps.lsst_sound)
  have hgs : out.graph = [exNode (some 0) "source".toList] ∧ out.sampled = r.gs := by
    obtain ⟨run, _, _, _, _, _, _, h1, h2, _⟩ := run_parts ho
    rw [hsp] at h1
    have h3 := Except.ok.inj h1
    exact ⟨(congrArg Prod.fst h3).symm, h2.trans (congrArg (fun q => q.2.gs) h3).symm⟩
  refine ⟨out, ho, ?_, ?_⟩
  · obtain ⟨nd, N, hnd, hN, _, _, _, _, _, _, hc⟩ := C119_table_partial ex_graph ex_physical hstd (by simp) ho
    obtain ⟨l, hl, hlen, hk⟩ := hc "source.redshift".toList (by simp) "source".toList "redshift".toList (by decide) (by decide) (by decide)
    refine ⟨l, hl, ?_⟩
    rw [hk 1 (by omega), hgs.2, hval "redshift".toList 1 rfl 1 (by norm_num)]
    rfl
  · obtain ⟨nd, N, w0, nobs, _, hN, _, _, hcol, _, hk⟩ := C119_lightcurves ex_graph ex_physical (fun _ _ _ => 10) hstd (by simp)
      (by intro a ha; rw [harg a ha]; exact EndToEndProps.gGroup_grid) (by intro a ha; rw [harg a ha]; exact EndToEndProps.lsst_built)
      (by intro a ha; rw [harg a ha]; exact ⟨1, rfl, by norm_num, by norm_num⟩) (by simp) ho
      (by intro nd st k a h1 h2 h3 _; rw [hgs.1] at h1; rw [hgs.2] at h3; cases h1; exact EndToEndProps.observes_in (hobs st k h2 h3) a.group)
    have : N = 2 := by omega
    subst this
    obtain ⟨st, ra, dec, t0, obs, _, _, _, _, h5, _, _, h8, _⟩ := hk 1 (by norm_num)
    refine ⟨nobs, hcol, ?_⟩
    rw [h8 _ (by simp [baseCols]), h5]
    rfl

end LCL.FullRunProps
