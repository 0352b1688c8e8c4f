import Verif.Model.CoverageRun
import Verif.Props.Samplers3
import Verif.Props.FullRun
import Verif.Props.RangeSearch
import Verif.Lemmas.PhysicalInit

/-!
# Property C148: objects placed by the survey's coverage are observed by the survey
-/

namespace LCL.CoverageRunProps
open LCL LCL.NodeSpec LCL.GraphSpec LCL.EndToEnd LCL.EndToEndSpec LCL.FullRun LCL.FullRunSpec LCL.ObsSpec LCL.SimSpec LCL.CoverageRun
variable {ρ : Type}

/-- The mask tells which points some row of the survey observes. -/
def Tells (t : ObsTable) (rad : ℝ) (pts : List (ℝ × ℝ)) (mask : List Bool) : Prop :=
  ∀ (k : Nat) p b, pts[k]? = some p → mask[k]? = some b → (b = true ↔ ∃ i, Match t p rad none none i)

theorem ask_spec {t : ObsTable} (hb : Built t) {rad : ℝ} (h0 : 0 ≤ rad) (h180 : rad ≤ 180) {pts : List (ℝ × ℝ)} {bs : List Bool} (h : askCoverage t rad pts = .ok bs) :
    bs.length = pts.length ∧ Tells t rad pts bs := by
  unfold askCoverage at h
  cases ho : t.isObserved (.arr (pts.map fun p => some p.1)) (.arr (pts.map fun p => some p.2)) (some rad) .none .none with
  | error e => rw [ho] at h; cases h
  | ok out =>
    rw [ho] at h
    obtain ⟨qs, e1, e2, h3⟩ := RangeSearchProps.C37_is_observed (ra := .arr _) (dec := .arr _) hb h0 h180 (by rfl) ho
    replace e1 : pts.map (fun p => some p.1) = qs.map fun q => some q.1 := e1
    replace e2 : pts.map (fun p => some p.2) = qs.map fun q => some q.2 := e2
    have hl : pts.length = qs.length := by simpa using congrArg List.length e1
    have hqs : qs = pts := by
      refine List.ext_getElem hl.symm fun i i1 i2 => ?_
      have a1 := congrArg (fun l => l[i]?) e1
      have a2 := congrArg (fun l => l[i]?) e2
      simp only [List.getElem?_map, List.getElem?_eq_getElem i1, List.getElem?_eq_getElem i2, Option.map_some, Option.some.injEq] at a1 a2
      exact Prod.ext a1.symm a2.symm
    subst hqs
    rcases h3 with ⟨hf, _⟩ | ⟨_, bs', rfl, h4, h5⟩
    · cases hf
    · cases h
      exact ⟨h4, fun k p b hp hm => h5 k p b hp hm⟩

theorem loop_spec (G : UnitGen ρ ℝ) {t : ObsTable} (hb : Built t) {rad : ℝ} (h0 : 0 ≤ rad) (h180 : rad ≤ 180) : ∀ (fuel : Nat) (r : ρ) (pts : List (ℝ × ℝ)) (mask : List Bool)
    (r' : ρ) (pts' : List (ℝ × ℝ)) (mask' : List Bool), coverLoop G t rad fuel r pts mask = (r', .ok (pts', mask')) → mask.length = pts.length →
    (Tells t rad pts mask ∨ 0 < missing mask ∧ 0 < fuel) → pts'.length = pts.length ∧ mask'.length = pts.length ∧ Tells t rad pts' mask' := by
  intro fuel
  induction fuel with
  | zero =>
    intro r pts mask r' pts' mask' h hl hT
    cases h
    rcases hT with hT | ⟨_, h⟩
    · exact ⟨rfl, hl, hT⟩
    · omega
  | succ fuel ih =>
    intro r pts mask r' pts' mask' h hl hT
    unfold coverLoop at h
    by_cases hm : missing mask > 0
    · rw [if_pos hm] at h
      dsimp only at h
      set new := List.zip ((G.draw r (missing mask)).2.map (uniformRa true)) ((G.draw (G.draw r (missing mask)).1 (missing mask)).2.map (uniformDec true))
      have hlen : (refill pts mask new).length = pts.length := SkyProps.refill_length _ _ _
      cases ha : askCoverage t rad (refill pts mask new) with
      | error e => rw [ha] at h; cases h
      | ok bs =>
        rw [ha] at h
        obtain ⟨b1, b2⟩ := ask_spec hb h0 h180 ha
        obtain ⟨c1, c2, c3⟩ := ih _ _ _ _ _ _ h b1 (Or.inl b2)
        exact ⟨c1.trans hlen, c2.trans hlen, c3⟩
    · rw [if_neg hm] at h
      cases h
      rcases hT with hT | ⟨h1, _⟩
      · exact ⟨rfl, hl, hT⟩
      · exact absurd h1 hm

theorem cover_spec (G : UnitGen ρ ℝ) {t : ObsTable} (hb : Built t) {rad : ℝ} (h0 : 0 ≤ rad) (h180 : rad ≤ 180) {maxIter n : Nat} (hi : 0 < maxIter) (hn : 0 < n) {r r' : ρ}
    {pts : List (ℝ × ℝ)} {mask : List Bool} (h : cover G t rad maxIter n r = (r', .ok (pts, mask))) :
    pts.length = n ∧ mask.length = n ∧ Tells t rad pts mask := by
  obtain ⟨h1, h2, h3⟩ := loop_spec G hb h0 h180 _ _ _ _ _ _ _ h (by simp) (Or.inr ⟨by simp [missing, hn], hi⟩)
  exact ⟨by simpa using h1, by simpa using h2, h3⟩

theorem match_mono {t : ObsTable} {q : ℝ × ℝ} {r R : ℝ} (h : r ≤ R) {lo hi : Option ℝ} {i : Nat} (hm : Match t q r lo hi i) : Match t q R lo hi i := by
  obtain ⟨ra, dec, h1, h2, h3, h4⟩ := hm
  exact ⟨ra, dec, h1, h2, h3.trans (mul_le_mul_of_nonneg_right h (by positivity)), h4⟩

/-- What a packed column stores in a state with `n` samples: its entries, one per sample. -/
theorem packed_sample {gs : GState ℝ} {node param : Name} {n : Nat} (hn : gs.numSamples = n) {l : List ℝ} (hl : l.length = n) {w : Val ℝ}
    (hw : storedAs n (packed n (l.map .scalar)) w) (hr : readParam gs node param = some w) (k : Nat) (x : ℝ) (hk : l[k]? = some x) :
    sampleValue gs node param k = some (.scalar x) := by
  unfold sampleValue
  rw [hn, hr]
  rcases hw with ⟨h1, rfl⟩ | ⟨h1, rows, rfl, hrl, h2⟩
  · subst h1
    rw [if_pos rfl]
    match l, hl, k, hk with
    | [y], _, 0, hk => cases hk; rfl
  · rw [if_neg h1]
    unfold packed at h2
    rw [if_neg h1] at h2
    rcases h2 with h2 | ⟨a, h2, _⟩
    · cases h2
      simp only [Option.bind_some, rowAt, List.getElem?_map, hk, Option.map_some]
    · cases h2

/-- C148, where the objects are: a model whose position is linked to a coverage sampler gets, for each object, the point the sampler's one call ended with; the sampler's mask tells truly
which of the points the survey observes. -/
theorem C148_positions {σ : Type} (G : UnitGen σ ℝ) {t : ObsTable} (hb : Built t) {rad : ℝ} (h0 : 0 ≤ rad) (h180 : rad ≤ 180) {maxIter : Nat} (hi : 0 < maxIter)
    {H H' : Heap ℝ σ} (hG : GraphOK H) {root sid : NodeId} {objs : List NodeId} {n : Int} (hn : 0 < n) {w : σ} {run : Heap.Run ℝ σ}
    (h : Heap.sampleParameters H root objs none n w = .ok (H', run)) {nd sn : PNode ℝ σ} (hnd : H'[root]? = some nd) (hsn : H'[sid]? = some sn)
    (hbody : sn.body = some (coverageBody G t rad maxIter)) (houts : sn.outputs = ["ra".toList, "dec".toList])
    {sra sdec : Setter ℝ} (hra : ("ra".toList, sra) ∈ nd.setters) (hra' : sra.src = .funcNode sid "ra".toList)
    (hdec : ("dec".toList, sdec) ∈ nd.setters) (hdec' : sdec.src = .funcNode sid "dec".toList) :
    ∃ (w1 w2 : σ) (pts : List (ℝ × ℝ)) (mask : List Bool), cover G t rad maxIter run.gs.numSamples w1 = (w2, .ok (pts, mask)) ∧ (run.gs.numSamples : Int) = n ∧
      pts.length = run.gs.numSamples ∧ mask.length = run.gs.numSamples ∧ Tells t rad pts mask ∧
      ∀ (k : Nat) p, pts[k]? = some p → sampleValue run.gs nd.str "ra".toList k = some (.scalar p.1) ∧ sampleValue run.gs nd.str "dec".toList k = some (.scalar p.2) := by
  obtain ⟨hG', hsf, -⟩ := FullRunProps.sampleFrom_of hG h
  have hnum : (run.gs.numSamples : Int) = n := (NodeProps.C14_complete hG' (given := none) trivial hsf).1
  have heq := NodeProps.C12_equations hG' (given := none) trivial hsf
  obtain ⟨hnodup, -, hthread⟩ := NodeProps.C12_each_once hG' (given := none) trivial hsf
  have hroot : Reach H' (objs ++ [root]) root := .root (by simp)
  have hsid : Reach H' (objs ++ [root]) sid := .step hroot ⟨nd, _, sra, hnd, hra, Or.inr ⟨_, hra'⟩⟩
  have hno : ∀ node p, ¬ ∃ v : Val ℝ, Given (α := ℝ) none node p v := by rintro node p ⟨v, hv⟩; exact hv
  have e1 := heq root nd hroot hnd _ _ hra (hno _ _)
  have e2 := heq root nd hroot hnd _ _ hdec (hno _ _)
  rw [hra'] at e1
  rw [hdec'] at e2
  obtain ⟨dn, wra, d1, d2, d3⟩ := e1
  rw [hsn] at d1; cases d1
  obtain ⟨dn, wdec, d1, d4, d5⟩ := e2
  rw [hsn] at d1; cases d1
  obtain ⟨st1, q1, m1, m2⟩ := (hG'.outs sn (List.mem_of_getElem? hsn) "ra".toList).1 (by rw [houts]; simp)
  obtain ⟨st2, q2, m3, m4⟩ := (hG'.outs sn (List.mem_of_getElem? hsn) "dec".toList).1 (by rw [houts]; simp)
  have f1 := heq sid sn hsid hsn _ _ m1 (hno _ _)
  have f2 := heq sid sn hsid hsn _ _ m3 (hno _ _)
  rw [m2] at f1
  rw [m4] at f2
  obtain ⟨args, res, u, w', c1, -, o1, s1, r1⟩ := f1
  obtain ⟨args', res', u', w'', c2, -, o2, s2, r2⟩ := f2
  have hsame : (sid, args, res) = (sid, args', res') := List.inj_on_of_nodup_map hnodup c1 c2 rfl
  cases hsame
  obtain ⟨nd', f, w1, w2, t1, t2, t3⟩ := InitLemmas.thread_call hthread _ _ _ c1
  rw [hsn] at t1; cases t1
  rw [hbody] at t2; cases t2
  unfold coverageBody at t3
  rcases hc : cover G t rad maxIter run.gs.numSamples w1 with ⟨w3, out⟩
  rw [hc] at t3
  match out, t3, hc with
  | .error e, t3, hc => cases t3
  | .ok (pts, mask), t3, hc =>
    obtain ⟨rfl, t4⟩ := Prod.mk.inj t3
    obtain ⟨p1, p2, p3⟩ := cover_spec G hb h0 h180 hi (by omega) hc
    refine ⟨w1, w3, pts, mask, hc, hnum, p1, p2, p3, ?_⟩
    have hres : res = .arr [packed run.gs.numSamples (pts.map fun p => .scalar p.1), packed run.gs.numSamples (pts.map fun p => .scalar p.2)] := (Except.ok.inj t4).symm
    have hout : ∀ {p : Name} {v : Val ℝ} {i : Nat} {z : Val ℝ}, OutputOf sn.outputs p res v → (["ra".toList, "dec".toList] : List Name)[i]? = some p →
        [packed run.gs.numSamples (pts.map fun p => (.scalar p.1 : Val ℝ)), packed run.gs.numSamples (pts.map fun p => .scalar p.2)][i]? = some z → v = z := by
      intro p v i z ho hp hz
      rcases ho with ⟨ho, _⟩ | ⟨_, rows, j, g1, _, g2, g3⟩
      · rw [houts] at ho; cases ho
      · rw [hres] at g1
        cases g1
        rw [houts] at g2
        have : i = j := (List.getElem?_inj (by
          cases i with
          | zero => simp
          | succ i => cases i with
            | zero => simp
            | succ i => simp at hp) (by decide : (["ra".toList, "dec".toList] : List Name).Nodup)).1 (hp.trans g2.symm)
        subst this
        rw [hz] at g3
        exact (Option.some.inj g3).symm
    have k1 : u = packed run.gs.numSamples ((pts.map (·.1)).map .scalar) := by
      rw [hout (i := 0) o1 rfl rfl, List.map_map]; rfl
    have k2 : u' = packed run.gs.numSamples ((pts.map (·.2)).map .scalar) := by
      rw [hout (i := 1) o2 rfl rfl, List.map_map]; rfl
    rw [d2] at r1; cases r1
    rw [d4] at r2; cases r2
    rw [k1] at s1
    rw [k2] at s2
    intro k p hp
    exact ⟨packed_sample rfl (by simpa using p1) s1 d3 k p.1 (by rw [List.getElem?_map, hp]; rfl),
      packed_sample rfl (by simpa using p1) s2 d5 k p.2 (by rw [List.getElem?_map, hp]; rfl)⟩

/-- C148. In a whole run of a model placed by the coverage sampler of a survey that is among the surveys simulated (with at most that survey's radius, and no time window), every object whose
last point the sampler accepted has an observation, so every object has one unless the sampler ran out of iterations; and if that survey with that radius is the only one, an object the
sampler gave up on has none. -/
theorem C148_observed {σ : Type} (G : UnitGen σ ℝ) {t : ObsTable} {rad R : ℝ} (h0 : 0 ≤ rad) (hR : rad ≤ R) {maxIter : Nat} (hi : 0 < maxIter)
    {isBand : Bool} {ev : Heap ℝ σ → PNode ℝ σ → SurveyArg → List ℝ → List Name → SState ℝ → σ → Except Err (List ℝ × σ)} {draw : σ → ℝ × σ} {H : Heap ℝ σ} (hG : GraphOK H)
    {root sid : NodeId} {objs : List NodeId} (hph : Physical H root) {n : Int} {args : List SurveyArg} {saveCols paramCols : List Name} {w : σ} {out : Outcome σ}
    (P : SurveyArg → SState ℝ → Name → ℝ → ℝ → Prop) (hstd : ∀ c ∈ paramCols, colName c ∉ standardCols) (hbuilt : ∀ a ∈ args, Built a.table)
    (hrad : ∀ a ∈ args, ∃ rad, a.table.radius = some rad ∧ 0 ≤ rad ∧ rad ≤ 180) (hsave : saveCols.Nodup ∧ ∀ c ∈ saveCols, c ∉ baseCols)
    (h : simulateFullWith isBand ev draw H root objs n args saveCols paramCols none w = .ok out)
    (hev : ∀ nd, out.graph[root]? = some nd → EndToEndProps.Sized (ev out.graph nd))
    (hobs : ∀ nd st (k : Nat) a, out.graph[root]? = some nd → (k : Int) < n → StateOf out.sampled k st → a ∈ args → Fluxes (ev out.graph nd a) st (P a st))
    {a : SurveyArg} (ha : a ∈ args) (hat : a.table = t) (htR : t.radius = some R) {nd sn : PNode ℝ σ} (hnd : out.graph[root]? = some nd) (hsn : out.graph[sid]? = some sn)
    (hbody : sn.body = some (coverageBody G t rad maxIter)) (houts : sn.outputs = ["ra".toList, "dec".toList])
    {sra sdec : Setter ℝ} (hra : ("ra".toList, sra) ∈ nd.setters) (hra' : sra.src = .funcNode sid "ra".toList)
    (hdec : ("dec".toList, sdec) ∈ nd.setters) (hdec' : sdec.src = .funcNode sid "dec".toList) :
    ∃ (N : Nat) (w1 w2 : σ) (pts : List (ℝ × ℝ)) (mask : List Bool) (nobs : List Nat), n = (N : Int) ∧ cover G t rad maxIter N w1 = (w2, .ok (pts, mask)) ∧
      pts.length = N ∧ mask.length = N ∧ Tells t rad pts mask ∧
      (∀ (k : Nat) p, pts[k]? = some p → sampleValue out.sampled nd.str "ra".toList k = some (.scalar p.1) ∧ sampleValue out.sampled nd.str "dec".toList k = some (.scalar p.2)) ∧
      nobs.length = N ∧ IsColumn out.table "nobs" N (fun k => nobs[k]?.map .int) ∧
      (∀ k : Nat, mask[k]? = some true → ∃ c, nobs[k]? = some c ∧ 0 < c ∧ (lightcurve out.nested k "mjd".toList).length = c) ∧
      (missing mask = 0 → ∀ c ∈ nobs, 0 < c) ∧
      (args = [a] → rad = R → ∀ k : Nat, mask[k]? = some false → nobs[k]? = some 0) := by
  obtain ⟨nd', N, w0, nobs, g1, g2, ⟨run, g3, -⟩, g4, g5, -, g7⟩ := FullRunProps.C119_fluxes hG hph P hstd (List.ne_nil_of_mem ha) hbuilt hrad hsave h hev hobs
  rw [hnd] at g1; cases g1
  obtain ⟨hn, -, run', h1, h2, -⟩ := FullRunProps.C119_sampled hG h
  have : run' = run := by rw [g3] at h1; exact (Prod.mk.inj (Except.ok.inj h1)).2.symm
  subst this
  have hb : Built t := by rw [← hat]; exact hbuilt a ha
  have h180 : R ≤ 180 := by
    obtain ⟨r, e1, e2, e3⟩ := hrad a ha
    rw [hat, htR] at e1; cases e1
    exact e3
  obtain ⟨w1, w2, pts, mask, p1, p2, p3, p4, p5, p6⟩ := C148_positions G hb h0 (hR.trans h180) hi hG hn g3 hnd hsn hbody houts hra hra' hdec hdec'
  have hN : run'.gs.numSamples = N := by omega
  rw [hN] at p1 p3 p4
  rw [h2] at p6
  have hobsd : ∀ k : Nat, mask[k]? = some true → ∃ c, nobs[k]? = some c ∧ 0 < c ∧ (lightcurve out.nested k "mjd".toList).length = c := by
    intro k hk
    have hkN : k < N := by rw [← p4]; exact (List.getElem?_eq_some_iff.1 hk).1
    have hp : pts[k]? = some (pts[k]'(by omega)) := List.getElem?_eq_getElem _
    obtain ⟨i, hm⟩ := (p5 k _ true hp hk).1 rfl
    obtain ⟨q1, q2⟩ := p6 k _ hp
    obtain ⟨st, ra, dec, t0, obs, a1, a2, a3, a4, a5, a6, a7, a8, a9⟩ := g7 k hkN
    rw [q1] at a2; cases a2
    rw [q2] at a3; cases a3
    obtain ⟨j, hj, hja⟩ := List.getElem_of_mem ha
    have hin : (j, i) ∈ obs := (a7 j i).2 ⟨a, R, by rw [List.getElem?_eq_getElem hj, hja], by rw [hat, htR], by rw [hat]; exact match_mono hR hm⟩
    exact ⟨_, a5, List.length_pos_of_mem hin, a8 _ (by simp [baseCols])⟩
  refine ⟨N, w1, w2, pts, mask, nobs, g2, p1, p3, p4, p5, p6, g4, g5, hobsd, ?_, ?_⟩
  · intro hm c hc
    obtain ⟨k, hk, rfl⟩ := List.getElem_of_mem hc
    have hkm : k < mask.length := by omega
    have hT : mask[k]? = some true := by
      rw [List.getElem?_eq_getElem hkm]
      cases hv : mask[k] with
      | true => rfl
      | false =>
        have := List.count_eq_zero.1 hm
        exact absurd (hv ▸ List.getElem_mem hkm) this
    obtain ⟨c, e1, e2, -⟩ := hobsd k hT
    rw [List.getElem?_eq_getElem hk] at e1
    cases e1
    exact e2
  · intro hargs hRR k hk
    subst hRR
    have hkN : k < N := by rw [← p4]; exact (List.getElem?_eq_some_iff.1 hk).1
    have hp : pts[k]? = some (pts[k]'(by omega)) := List.getElem?_eq_getElem _
    have hno : ¬ ∃ i, Match t (pts[k]'(by omega)) rad none none i := fun hm => by cases (p5 k _ false hp hk).2 hm
    obtain ⟨q1, q2⟩ := p6 k _ hp
    obtain ⟨st, ra, dec, t0, obs, a1, a2, a3, a4, a5, a6, a7, a8, a9⟩ := g7 k hkN
    rw [q1] at a2; cases a2
    rw [q2] at a3; cases a3
    rw [a5]
    congr 1
    rw [List.length_eq_zero_iff, List.eq_nil_iff_forall_not_mem]
    rintro ⟨j, q⟩ hq
    obtain ⟨a', r', b1, b2, b3⟩ := (a7 j q).1 hq
    rw [hargs] at b1
    have : a' = a := List.mem_singleton.1 (List.mem_of_getElem? b1)
    subst this
    rw [hat, htR] at b2; cases b2
    rw [hat] at b3
    exact hno ⟨q, b3⟩

end LCL.CoverageRunProps
