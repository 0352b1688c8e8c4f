import Verif.Props.AskAny

/-!
# C145 — the recorded flux of a sum is the sum of the fluxes of its parts
-/

namespace LCL.SumOfPartsProps
open LCL LCL.FullRun LCL.FullRunSpec LCL.FullRunProps LCL.EndToEnd LCL.EndToEndSpec LCL.NodeSpec LCL.SimSpec LCL.PhysSpec LCL.GraphLemmas LCL.GraphSpec LCL.Direct LCL.DirectSpec
  LCL.DirectProps LCL.RecordedSpec LCL.RecordedProps LCL.AskAny LCL.AskAnySpec LCL.AskAnyProps
variable {V W σ R : Type}

theorem eachState_single_inv {β : Type} {f : SState ℝ → σ → Except Err (β × σ)} {s : GState ℝ} (h1 : s.numSamples = 1) {w w' : σ} {b : β} (h : eachState f s w = .ok (.one b, w')) :
    ∃ st, sstateOf s.states = .ok st ∧ f st w = .ok (b, w') := by
  unfold eachState at h
  rw [if_pos h1] at h
  cases hst : sstateOf s.states with
  | error e => rw [hst] at h; cases h
  | ok st =>
    rw [hst] at h
    dsimp only at h
    cases hf : f st w with
    | error e => rw [hf] at h; cases h
    | ok q => rw [hf] at h; cases h; exact ⟨st, rfl, hf⟩

theorem inOrder_det {eval : PhysModel V W R ℝ → R → Except Err (List ℝ × R)} : ∀ {os : List (PhysModel V W R ℝ)} {r r' : R} {rows : List (List ℝ)},
    (∀ o ∈ os, ∀ r row r', eval o r = .ok (row, r') → r' = r ∧ ∃ y, row = [y] ∧ ∀ r2, eval o r2 = .ok ([y], r2)) → InOrder eval os r rows r' →
    r' = r ∧ ∃ parts : List ℝ, rows = parts.map (fun y => [y]) ∧ parts.length = os.length ∧
      ∀ (q : Nat) o y, os[q]? = some o → parts[q]? = some y → ∀ r2, eval o r2 = .ok ([y], r2) := by
  intro os
  induction os with
  | nil =>
    intro r r' rows _ h
    cases h
    exact ⟨rfl, [], rfl, rfl, fun q o y h => by simp at h⟩
  | cons o os ih =>
    intro r r' rows hd h
    cases h with
    | cons h1 h2 =>
      obtain ⟨rfl, y, rfl, hy⟩ := hd o (by simp) _ _ _ h1
      obtain ⟨rfl, parts, rfl, hl, hp⟩ := ih (fun o h => hd o (List.mem_cons_of_mem _ h)) h2
      refine ⟨rfl, y :: parts, rfl, by simp [hl], fun q o' y' ho hy' r2 => ?_⟩
      cases q with
      | zero => cases ho; cases hy'; exact hy r2
      | succ q => exact hp q o' y' ho hy' r2

/-- C145. Asked for one observation with the state of one sample, a sum of objects that treat observations one by one answers with the weighted sum of the fluxes its objects
answer with when they are asked alone, each with the same state, changed by the effects added to the sum. -/
theorem C145_sum {mk : Heap ℝ σ → PNode ℝ σ → PhysModel V W σ ℝ} {noKw : W} {H : Heap ℝ σ} {root : NodeId} {nd : PNode ℝ σ} (hnd : H[root]? = some nd) {objs : List NodeId} {node : Name}
    {setters : Dict Name V} {objects : List (PhysModel V W σ ℝ)} {weights : List ℝ} {effects : List (Effect V σ ℝ)} (hmk : mk H nd = .additive node setters objects weights effects)
    (hw : weights.length = objects.length) {g : PassbandGroup ℝ} (hone : ∀ st, ∀ o ∈ objects, ModelOneByOne noKw g st o) {s : GState ℝ} (hs : s.numSamples = 1) {t x : ℝ} {f : Name} {w w' : σ}
    {H' : Heap ℝ σ} (h : askPhys mk noKw H root objs (.group g) [t] (some [f]) (some s) w = .ok (H', .one [x], w')) :
    ∃ parts : List ℝ, parts.length = objects.length ∧
      (∀ (q : Nat) o y, objects[q]? = some o → parts[q]? = some y → ∀ (root2 : NodeId) (objs2 : List NodeId) (w2 : σ), root2 < H.length →
        askPhys (fun _ _ => o) noKw H root2 objs2 (.group g) [t] (some [f]) (some s) w2 = .ok (H, .one [y], w2)) ∧
      ∃ st p, sstateOf s.states = .ok st ∧ st.get? node = some p ∧ AppliedBand p [t] [f] effects ([(List.zipWith (fun a b => a * b) weights parts).sum], w) ([x], w') := by
  obtain ⟨rfl, g', fs', hr, hl, he⟩ := (ask_iff mk noKw hnd _ _ _ _ _ _ _ _ _).1 h
  cases hr
  obtain ⟨st, hst, hb⟩ := eachState_single_inv hs he
  rw [hmk] at hb
  obtain ⟨rows, r', p, total, h1, h2, h3, h4, h5, h6⟩ := (MultiProps.C35_sum_bandflux noKw g [t] [f] st node setters objects weights effects w ([x], w') hw).1 hb
  obtain ⟨rfl, parts, rfl, hpl, hp⟩ := inOrder_det (by
    intro o ho r row r' h
    obtain ⟨rfl, l1, c1⟩ := hone st o ho [t] [f] r row r' rfl h
    match row, l1 with
    | [y], _ => exact ⟨rfl, y, rfl, fun r2 => c1 0 t f y rfl rfl rfl r2⟩) h1
  refine ⟨parts, hpl, ?_, st, p, hst, h5, ?_⟩
  · intro q o y ho hy root2 objs2 w2 hroot
    rw [ask_iff _ noKw (List.getElem?_eq_getElem hroot)]
    exact ⟨rfl, g, [f], rfl, rfl, eachState_single hs hst (hp q o y ho hy w2)⟩
  · have e : total = [(List.zipWith (fun a b => a * b) weights parts).sum] := by
      match total, h3, h4 with
      | [z], _, h4 =>
        have := h4 0
        rw [List.zipWith_map_right] at this
        simpa using this
    rw [e] at h6
    exact h6

/-- Without effects, the flux is the weighted sum. -/
theorem C145_plain {V : Type} {p : Params ℝ} {t : ℝ} {f : Name} {a x : ℝ} {w w' : σ} (h : AppliedBand p [t] [f] ([] : List (Effect V σ ℝ)) ([a], w) ([x], w')) : x = a := by
  cases h; rfl

/-- C145. Every flux a simulation of a sum has recorded is the weighted sum of the fluxes its objects answer with when they are asked alone, for the time and filter of the
observation, with the state restored from the row's `params`, changed by the effects added to the sum. -/
theorem C145_survey (mk : Heap ℝ σ → PNode ℝ σ → PhysModel V W σ ℝ) {isBand : Bool} (noKw : W) {draw : σ → ℝ × σ} {H : Heap ℝ σ} (hG : GraphOK H) {root : NodeId} {objs : List NodeId}
    (hph : Physical H root) {n : Int} {args : List SurveyArg} {saveCols paramCols : List Name} {offset : Option (List (Option ℝ))} {w : σ} {out : Outcome σ}
    (hstd : ∀ c ∈ paramCols, colName c ∉ standardCols) (hne : args ≠ []) (hbuilt : ∀ a ∈ args, ObsSpec.Built a.table)
    (hrad : ∀ a ∈ args, ∃ rad, a.table.radius = some rad ∧ 0 ≤ rad ∧ rad ≤ 180) (hsave : saveCols.Nodup ∧ ∀ c ∈ saveCols, c ∉ baseCols)
    (h : simulatePhys mk isBand noKw draw H root objs n args saveCols paramCols offset w = .ok out) {nd : PNode ℝ σ} (hnd : out.graph[root]? = some nd) {node : Name}
    {setters : Dict Name V} {objects : List (PhysModel V W σ ℝ)} {weights : List ℝ} {effects : List (Effect V σ ℝ)} (hmk : mk out.graph nd = .additive node setters objects weights effects)
    (hw : weights.length = objects.length) (hone : ∀ g st, ∀ o ∈ objects, ModelOneByOne noKw g st o) (heff : ∀ e ∈ effects, ∀ p, EffectOneByOne e p) (k : Nat) (hk : (k : Int) < n)
    {d : Dict Name (Val ℝ)} (hd : RowParams out.table k d) {s : GState ℝ} (hs : restored d = .ok s) (i : Nat) (hi : i < (lightcurve out.nested k "mjd".toList).length) :
    ∃ (j : Nat) (a : SurveyArg) (t x : ℝ) (f : Name) (parts : List ℝ), args[j]? = some a ∧ (lightcurve out.nested k "survey_idx".toList)[i]? = some (.survey j) ∧
      (lightcurve out.nested k "mjd".toList)[i]? = some (.num t) ∧ (lightcurve out.nested k "filter".toList)[i]? = some (.text f) ∧
      (lightcurve out.nested k "flux_perfect".toList)[i]? = some (.num x) ∧ parts.length = objects.length ∧
      (∀ (q : Nat) o y, objects[q]? = some o → parts[q]? = some y → ∀ (root2 : NodeId) (objs2 : List NodeId) (w2 : σ), root2 < out.graph.length →
        askPhys (fun _ _ => o) noKw out.graph root2 objs2 (.group a.group) [t] (some [f]) (some s) w2 = .ok (out.graph, .one [y], w2)) ∧
      ∃ st p, sstateOf s.states = .ok st ∧ st.get? node = some p ∧ ∀ w2 : σ, AppliedBand p [t] [f] effects ([(List.zipWith (fun a b => a * b) weights parts).sum], w2) ([x], w2) := by
  have hs1 : s.numSamples = 1 := by
    obtain ⟨hf, hn, l, hl, rfl⟩ := row_dict hG hph hstd h
    obtain ⟨s', e1, e2, e3⟩ := sample_exact hf (k := k)
    obtain ⟨l', q1, q2⟩ := hd
    rw [hl] at q1
    cases q1
    rw [List.getElem?_map, List.getElem?_range (by omega)] at q2
    simp only [Option.map_some, Option.some.injEq, RCell.dict.injEq] at q2
    subst q2
    rw [e1] at hs
    cases hs
    exact e3
  have hmodel : ∀ nd, out.graph[root]? = some nd → ∀ g st, ModelOneByOne noKw g st (mk out.graph nd) := by
    intro nd' hnd' g st
    rw [hnd] at hnd'
    cases hnd'
    rw [hmk]
    exact (C144_parts noKw g st).2.2.1 node setters objects weights effects (hone g st) heff
  obtain ⟨j, a, t, x, f, c1, c2, c3, c4, c5, c6⟩ := C144_flux mk noKw hG hph hstd hne hbuilt hrad hsave h hmodel k hk hd hs i hi
  obtain ⟨parts, p1, p2, st, p, p3, p4, p5⟩ := C145_sum hnd hmk hw (hone a.group) hs1 (c6 out.world)
  refine ⟨j, a, t, x, f, parts, c1, c2, c3, c4, c5, p1, p2, st, p, p3, p4, fun w2 => ?_⟩
  obtain ⟨parts', q1, q2, st', p', q3, q4, q5⟩ := C145_sum hnd hmk hw (hone a.group) hs1 (c6 w2)
  have hst : st' = st := by rw [p3] at q3; exact (Except.ok.inj q3).symm
  subst hst
  have hp : p' = p := by rw [p4] at q4; exact (Option.some.inj q4).symm
  subst hp
  have : parts' = parts := by
    refine List.ext_getElem (by omega) fun q h1 h2 => ?_
    have hroot : root < out.graph.length := (List.getElem?_eq_some_iff.1 hnd).1
    have hq : q < objects.length := by omega
    have u1 := p2 q objects[q] parts[q] (List.getElem?_eq_getElem hq) (List.getElem?_eq_getElem h2) root [] w2 hroot
    have u2 := q2 q objects[q] parts'[q] (List.getElem?_eq_getElem hq) (List.getElem?_eq_getElem h1) root [] w2 hroot
    rw [u1] at u2
    simp only [Except.ok.injEq, Prod.mk.injEq, Stack.one.injEq, List.cons.injEq, and_true, true_and] at u2
    exact u2.symm
  rw [this] at q5
  exact q5

/-- The run of C126's example (two of a redshifted star and three of a dimmed lamp) meets the hypotheses: every recorded flux is two times the star's flux and three times the
lamp's. -/
example (draw : Nat → ℝ × Nat) : ∃ out : Outcome Nat,
    simulatePhys (fun _ _ => CompositeProps.pair) false () draw (ConstGraph.before [CompositeProps.sumConsts, CompositeProps.starConsts, CompositeProps.lampConsts]) 0 [1, 2] 2
      [EndToEndProps.lsstArg] [] [] (some [some 1, none]) 4 = .ok out ∧
    ∀ (d : Dict Name (Val ℝ)) (s : GState ℝ), RowParams out.table 0 d → restored d = .ok s → ∀ i, i < (lightcurve out.nested 0 "mjd".toList).length →
      ∃ (y z : ℝ) (t : ℝ) (f : Name) (a : SurveyArg), (lightcurve out.nested 0 "flux_perfect".toList)[i]? = some (.num (2 * y + 3 * z)) ∧
        ∀ (o : PhysModel Unit Unit Nat ℝ) (v : ℝ), (o = .sed CompositeProps.star ∧ v = y) ∨ (o = .band CompositeProps.lamp ∧ v = z) → ∀ root2 w2, root2 < out.graph.length →
          askPhys (fun _ _ => o) () out.graph root2 [] (.group a.group) [t] (some [f]) (some s) w2 = .ok (out.graph, .one [v], w2) := by
  obtain ⟨hG, hph, out, ho⟩ := pair_run draw
  refine ⟨out, ho, fun d s hd hs i hi => ?_⟩
  obtain ⟨nd, hnd⟩ : ∃ nd, out.graph[0]? = some nd := by
    obtain ⟨run, nd, table, states, res, table', _, hsp, hsm, hnd, hp, hsim, hnest, hno, hfr⟩ := run_parts ho
    exact ⟨nd, hnd⟩
  have hone : ∀ (g : PassbandGroup ℝ) st, ∀ o ∈ ([.sed CompositeProps.star, .band CompositeProps.lamp] : List (PhysModel Unit Unit Nat ℝ)), ModelOneByOne () g st o := by
    intro g st o ho
    simp only [List.mem_cons, List.not_mem_nil, or_false] at ho
    rcases ho with rfl | rfl
    · exact star_oneByOne g st
    · exact lamp_oneByOne g st
  obtain ⟨j, a, t, x, f, parts, -, -, -, -, h1, h2, h3, st, p, -, -, h4⟩ := C145_survey (fun _ _ => CompositeProps.pair) (isBand := false) () hG hph (by intro c hc; cases hc) (by simp)
    (by intro a ha; rw [List.mem_singleton] at ha; subst ha; exact EndToEndProps.lsst_built)
    (by intro a ha; rw [List.mem_singleton] at ha; subst ha; exact ⟨1, rfl, by norm_num, by norm_num⟩) (by simp) ho hnd rfl rfl hone (by intro e he; cases he) 0 (by norm_num) hd hs i hi
  match parts, h2 with
  | [y, z], _ =>
    refine ⟨y, z, t, f, a, ?_, ?_⟩
    · rw [h1, C145_plain (h4 0)]
      simp [List.zipWith]
    · rintro o v (⟨rfl, rfl⟩ | ⟨rfl, rfl⟩) root2 w2 hroot
      · exact h3 0 _ _ rfl rfl root2 [] w2 hroot
      · exact h3 1 _ _ rfl rfl root2 [] w2 hroot

end LCL.SumOfPartsProps
