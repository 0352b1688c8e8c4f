import Verif.Model.PointingRun
import Verif.Props.PointingSampler
import Verif.Props.CoverageRun

/-!
# Property C149: objects sampled around the visits of a survey are observed by the survey
-/

namespace LCL.PointingRunProps
open LCL LCL.NodeSpec LCL.GraphSpec LCL.EndToEnd LCL.EndToEndSpec LCL.FullRun LCL.FullRunSpec LCL.ObsSpec LCL.SimSpec LCL.PointingRun
variable {σ : Type}

/-- Entry `k` of a column. -/
theorem mapM_get {β : Type} (col : List β) : ∀ (inds : List Nat), (∀ i ∈ inds, i < col.length) → ∃ vs, inds.mapM (fun i => col[i]?) = some vs ∧ vs.length = inds.length ∧
    ∀ k i : Nat, inds[k]? = some i → vs[k]? = col[i]? := by
  intro inds
  induction inds with
  | nil => intro _; exact ⟨[], rfl, rfl, by intro k i h; cases h⟩
  | cons j l ih =>
    intro h
    obtain ⟨vs, h1, h2, h3⟩ := ih fun i hi => h i (List.mem_cons_of_mem _ hi)
    have hj := h j List.mem_cons_self
    refine ⟨col[j] :: vs, ?_, by simp [h2], ?_⟩
    · rw [List.mapM_cons, List.getElem?_eq_getElem hj]
      simp [h1]
    · intro k i hk
      cases k with
      | zero => cases hk; simp [List.getElem?_eq_getElem hj]
      | succ k => simpa using h3 k i (by simpa using hk)

theorem column_packed {n : Nat} (hn : 0 < n) (inds : List Nat) (hl : inds.length = n) (col : List ℝ) (hlt : ∀ i ∈ inds, i < col.length) :
    ∃ xs : List ℝ, TableSampler.column n inds (col.map Val.scalar) = .ok (packed n (xs.map .scalar)) ∧ xs.length = n ∧ ∀ k i : Nat, inds[k]? = some i → xs[k]? = col[i]? := by
  obtain ⟨xs, h1, h2, h3⟩ := mapM_get col inds hlt
  obtain ⟨vs, g1, g2, g3⟩ := mapM_get (col.map (Val.scalar (α := ℝ))) inds (by simpa using hlt)
  have hvs : vs = xs.map .scalar := by
    apply List.ext_getElem?
    intro k
    by_cases hk : k < inds.length
    · have hi := List.getElem?_eq_getElem hk
      rw [g3 k _ hi, List.getElem?_map, List.getElem?_map, h3 k _ hi]
    · rw [List.getElem?_eq_none (by omega), List.getElem?_eq_none (by simp; omega)]
  subst hvs
  refine ⟨xs, ?_, by omega, h3⟩
  unfold TableSampler.column
  rw [g1]
  unfold packed
  by_cases h : n = 1
  · simp only [h, if_true]
    match xs, h2, hl with
    | [], h2, hl => simp at h2; omega
    | x :: xs, _, _ => rfl
  · simp only [h, if_false]

/-- What the node computes. -/
theorem body_spec (I : IntGen σ) (U : UnitGen σ ℝ) {sr rad : Option ℝ} {ra dec time : List ℝ} {P : Pointing} (hP : Pointing.init sr rad ra dec time false false false = .ok P)
    {n : Nat} (hn : 0 < n) (h1 : n ≠ 1 ∨ P.radius = 0) (r : σ) (a : Dict Name (Val ℝ)) :
    ∃ (r' : σ) (inds : List Nat) (ras decs times : List ℝ), pointingBody I U P r n a = (r', .ok (.arr [packed n (ras.map .scalar), packed n (decs.map .scalar), packed n (times.map .scalar)])) ∧
      inds = (I.draw r ra.length n).2 ∧ ras.length = n ∧ decs.length = n ∧ times.length = n ∧
      ∀ k, k < n → ∃ i x y a0 d0 t, inds[k]? = some i ∧ ra[i]? = some a0 ∧ dec[i]? = some d0 ∧ time[i]? = some t ∧ ras[k]? = some (a0 + x) ∧ decs[k]? = some (d0 + y) ∧
        times[k]? = some t ∧ x ^ 2 + y ^ 2 ≤ P.radius ^ 2 := by
  obtain ⟨hr0, -, hI1, hI2, htab, hpos, hdl, htl⟩ := PointingProps.init_ok hP
  set D := I.draw r ra.length n with hD
  have hl : D.2.length = n := I.length _ _ _
  have hlt : ∀ i ∈ D.2, i < ra.length := I.lt _ _ _ hpos
  obtain ⟨xs, c1, l1, v1⟩ := column_packed hn D.2 hl ra hlt
  obtain ⟨ys, c2, l2, v2⟩ := column_packed hn D.2 hl dec (by rw [hdl]; exact hlt)
  obtain ⟨ts, c3, l3, v3⟩ := column_packed hn D.2 hl time (by rw [htl]; exact hlt)
  have hind : P.table.indices I r n = ((P.table, D.1), .ok D.2) := by
    rw [htab]
    unfold TableSampler.indices
    rfl
  have hcol : P.table.collect ["ra".toList, "dec".toList, "time".toList] n D.2 = .ok [packed n (xs.map .scalar), packed n (ys.map .scalar), packed n (ts.map .scalar)] := by
    rw [htab]
    have e1 : (Pointing.columns ra dec time).get? "ra".toList = some (ra.map .scalar) := rfl
    have e2 : (Pointing.columns ra dec time).get? "dec".toList = some (dec.map .scalar) := rfl
    have e3 : (Pointing.columns ra dec time).get? "time".toList = some (time.map .scalar) := rfl
    unfold TableSampler.collect
    simp only [List.mapM_cons, List.mapM_nil, e1, e2, e3, c1, c2, c3, bind, Except.bind, pure, Except.pure]
  unfold pointingBody
  rw [hind]
  dsimp only
  rw [hcol]
  dsimp only
  have hget : ∀ k, k < n → ∃ i a0 d0 t, D.2[k]? = some i ∧ ra[i]? = some a0 ∧ dec[i]? = some d0 ∧ time[i]? = some t ∧ xs[k]? = some a0 ∧ ys[k]? = some d0 ∧ ts[k]? = some t := by
    intro k hk
    have hki : D.2[k]? = some (D.2[k]'(by omega)) := List.getElem?_eq_getElem _
    have hin := hlt _ (List.getElem_mem (show k < D.2.length by omega))
    have q1 : ra[D.2[k]'(by omega)]? = some (ra[D.2[k]'(by omega)]'hin) := List.getElem?_eq_getElem _
    have q2 : dec[D.2[k]'(by omega)]? = some (dec[D.2[k]'(by omega)]'(by omega)) := List.getElem?_eq_getElem _
    have q3 : time[D.2[k]'(by omega)]? = some (time[D.2[k]'(by omega)]'(by omega)) := List.getElem?_eq_getElem _
    exact ⟨_, _, _, _, hki, q1, q2, q3, (v1 k _ hki).trans q1, (v2 k _ hki).trans q2, (v3 k _ hki).trans q3⟩
  by_cases hrad : P.radius > 0
  · rw [if_pos hrad]
    have hn1 : n ≠ 1 := by
      rcases h1 with h | h
      · exact h
      · rw [h] at hrad; exact absurd hrad (lt_irrefl _)
    set us := (U.draw D.1 n).2 with hus
    set vs := (U.draw (U.draw D.1 n).1 n).2 with hvs
    have lu : us.length = n := U.length _ _
    have lv : vs.length = n := U.length _ _
    have e1 := PointingProps.shift_packed hn xs (List.zipWith (Pointing.raOffset P.radius) us vs) l1 (by simp [lu, lv])
    have e2 := PointingProps.shift_packed hn ys (List.zipWith (Pointing.decOffset P.radius) us vs) l2 (by simp [lu, lv])
    have pk : ∀ l : List ℝ, (.arr (l.map .scalar) : Val ℝ) = packed n (l.map .scalar) := by
      intro l; unfold packed; rw [if_neg hn1]
    rw [pk] at e1 e2
    refine ⟨(U.draw (U.draw D.1 n).1 n).1, D.2, List.zipWith (· + ·) xs (List.zipWith (Pointing.raOffset P.radius) us vs), List.zipWith (· + ·) ys (List.zipWith (Pointing.decOffset P.radius) us vs), ts, ?_, rfl,
      by simp [l1, lu, lv], by simp [l2, lu, lv], l3, ?_⟩
    · unfold moved
      rw [hI1, e1, hI2]
      dsimp only
      rw [e2]
    · intro k hk
      obtain ⟨i, a0, d0, t, g1, g2, g3, g4, g5, g6, g7⟩ := hget k hk
      obtain ⟨u, v, hu, _, ku, kv, w1⟩ := PointingProps.zip_get (f := Pointing.raOffset P.radius) lu lv hk
      have w2 : (List.zipWith (Pointing.decOffset P.radius) us vs)[k]? = some (Pointing.decOffset P.radius u v) := by
        rw [List.getElem?_zipWith, ku, kv]
      refine ⟨i, _, _, a0, d0, t, g1, g2, g3, g4, ?_, ?_, g7, PointingProps.offset_disc P.radius u v (U.nonneg _ _ u hu) (U.lt_one _ _ u hu)⟩
      · rw [List.getElem?_zipWith, g5, w1]
      · rw [List.getElem?_zipWith, g6, w2]
  · rw [if_neg hrad]
    refine ⟨_, D.2, xs, ys, ts, rfl, rfl, l1, l2, l3, ?_⟩
    intro k hk
    obtain ⟨i, a0, d0, t, g1, g2, g3, g4, g5, g6, g7⟩ := hget k hk
    exact ⟨i, 0, 0, a0, d0, t, g1, g2, g3, g4, by rw [g5, add_zero], by rw [g6, add_zero], g7, by rw [zero_pow two_ne_zero, add_zero]; exact sq_nonneg _⟩

/-- The separation of the survey table's search is the angle on the sky. -/
theorem sep_angle (ra dec ra' dec' : ℝ) : sep ra dec ra' dec' = Sky.angle (Sky.dir ra dec) (Sky.dir ra' dec') := by
  unfold sep Sky.angle
  rw [Sky.dot_dir]
  have h : ∀ x : ℝ, x * (Real.pi / 180) = Sky.rad x := fun x => by unfold Sky.rad; ring
  simp only [h]
  congr 1
  ring

theorem sep_le {ra dec x y R : ℝ} (hR : 0 ≤ R) (h : x ^ 2 + y ^ 2 ≤ R ^ 2) : sep (ra + x) (dec + y) ra dec ≤ R * (Real.pi / 180) := by
  rw [sep_angle]
  refine (Sky.disc_angle ra dec x y R hR h).trans (le_of_eq ?_)
  unfold Sky.rad; ring

/-- C149, where and when the objects are: a model whose position and time are linked to a sampler of a survey's visits gets, for each object, one visit (the one whose number the generator drew):
its time is that visit's time and its position is at most the sampler's radius from that visit's pointing. -/
theorem C149_positions (I : IntGen σ) (U : UnitGen σ ℝ) {sr rad : Option ℝ} {ra dec time : List ℝ} {P : Pointing} (hP : Pointing.init sr rad ra dec time false false false = .ok P)
    {H H' : Heap ℝ σ} (hG : GraphOK H) {root sid : NodeId} {objs : List NodeId} {n : Int} (hn : 0 < n) (hn1 : n ≠ 1 ∨ P.radius = 0) {w : σ} {run : Heap.Run ℝ σ}
    (h : Heap.sampleParameters H root objs none n w = .ok (H', run)) {nd sn : PNode ℝ σ} (hnd : H'[root]? = some nd) (hsn : H'[sid]? = some sn)
    (hbody : sn.body = some (pointingBody I U P)) (houts : sn.outputs = ["ra".toList, "dec".toList, "time".toList])
    {sra sdec st0 : Setter ℝ} (hra : ("ra".toList, sra) ∈ nd.setters) (hra' : sra.src = .funcNode sid "ra".toList)
    (hdec : ("dec".toList, sdec) ∈ nd.setters) (hdec' : sdec.src = .funcNode sid "dec".toList) (ht0 : ("t0".toList, st0) ∈ nd.setters) (ht0' : st0.src = .funcNode sid "time".toList) :
    ∃ (w1 : σ) (inds : List Nat), (run.gs.numSamples : Int) = n ∧ inds = (I.draw w1 ra.length run.gs.numSamples).2 ∧ inds.length = run.gs.numSamples ∧
      ∀ k, k < run.gs.numSamples → ∃ i a d a0 d0 t, inds[k]? = some i ∧ ra[i]? = some a0 ∧ dec[i]? = some d0 ∧ time[i]? = some t ∧
        sampleValue run.gs nd.str "ra".toList k = some (.scalar a) ∧ sampleValue run.gs nd.str "dec".toList k = some (.scalar d) ∧
        sampleValue run.gs nd.str "t0".toList k = some (.scalar t) ∧ sep a d a0 d0 ≤ P.radius * (Real.pi / 180) := by
  obtain ⟨hG', hsf, -⟩ := FullRunProps.sampleFrom_of hG h
  have hnum : (run.gs.numSamples : Int) = n := (NodeProps.C14_complete hG' (given := none) trivial hsf).1
  have heq := NodeProps.C12_equations hG' (given := none) trivial hsf
  obtain ⟨hnodup, -, hthread⟩ := NodeProps.C12_each_once hG' (given := none) trivial hsf
  have hroot : Reach H' (objs ++ [root]) root := .root (by simp)
  have hsid : Reach H' (objs ++ [root]) sid := .step hroot ⟨nd, _, sra, hnd, hra, Or.inr ⟨_, hra'⟩⟩
  have hno : ∀ node p, ¬ ∃ v : Val ℝ, Given (α := ℝ) none node p v := by rintro node p ⟨v, hv⟩; exact hv
  have hr0 := (PointingProps.init_ok hP).1
  -- what one linked parameter holds
  have key : ∀ (p : Name) (s : Setter ℝ) (q : Name) (i : Nat), (p, s) ∈ nd.setters → s.src = .funcNode sid q →
      (["ra".toList, "dec".toList, "time".toList] : List Name)[i]? = some q → ∃ (c : NodeId × Dict Name (Val ℝ) × Val ℝ) (u wv : Val ℝ), c ∈ run.calls ∧ c.1 = sid ∧
        readParam run.gs nd.str p = some wv ∧ storedAs run.gs.numSamples u wv ∧ (∀ rows, c.2.2 = .arr rows → rows[i]? = some u) := by
    intro p s q i hs hs' hi
    have e := heq root nd hroot hnd _ _ hs (hno _ _)
    rw [hs'] at e
    obtain ⟨dn, wv, d1, d2, d3⟩ := e
    rw [hsn] at d1; cases d1
    obtain ⟨st, q', m1, m2⟩ := (hG'.outs sn (List.mem_of_getElem? hsn) q).1 (by rw [houts]; exact List.mem_of_getElem? hi)
    have f := heq sid sn hsid hsn _ _ m1 (hno _ _)
    rw [m2] at f
    obtain ⟨args, res, u, w', c, -, o, s1, r1⟩ := f
    rw [d2] at r1; cases r1
    refine ⟨(sid, args, res), u, _, c, rfl, d3, s1, ?_⟩
    intro rows hrows
    rcases o with ⟨ho, _⟩ | ⟨_, rows', j, g1, _, g2, g3⟩
    · rw [houts] at ho; cases ho
    · replace g1 : res = .arr rows' := g1
      replace hrows : res = .arr rows := hrows
      rw [hrows] at g1
      cases g1
      rw [houts] at g2
      have : i = j := (List.getElem?_inj (List.getElem?_eq_some_iff.1 hi).1 (by decide : (["ra".toList, "dec".toList, "time".toList] : List Name).Nodup)).1 (hi.trans g2.symm)
      subst this
      exact g3
  obtain ⟨c1, u1, v1, k1, k2, r1, s1, g1⟩ := key _ _ _ 0 hra hra' rfl
  obtain ⟨c2, u2, v2, k3, k4, r2, s2, g2⟩ := key _ _ _ 1 hdec hdec' rfl
  obtain ⟨c3, u3, v3, k5, k6, r3, s3, g3⟩ := key _ _ _ 2 ht0 ht0' rfl
  have e12 : c1 = c2 := List.inj_on_of_nodup_map hnodup k1 k3 (k2.trans k4.symm)
  have e13 : c1 = c3 := List.inj_on_of_nodup_map hnodup k1 k5 (k2.trans k6.symm)
  subst e12; subst e13
  obtain ⟨cid, args, res⟩ := c1
  replace k2 : cid = sid := k2
  subst k2
  obtain ⟨nd', f, w1, w2, t1, t2, t3⟩ := InitLemmas.thread_call hthread _ _ _ k1
  rw [hsn] at t1; cases t1
  rw [hbody] at t2; cases t2
  have hns : 0 < run.gs.numSamples := by omega
  obtain ⟨r', inds, ras, decs, times, b1, b2, b3, b4, b5, b6⟩ := body_spec I U hP hns (by rcases hn1 with h | h; exact Or.inl (by omega); exact Or.inr h) w1 args
  rw [b1] at t3
  have hres := (Except.ok.inj (Prod.mk.inj t3).2).symm
  have x1 := Option.some.inj (g1 _ hres)
  have x2 := Option.some.inj (g2 _ hres)
  have x3 := Option.some.inj (g3 _ hres)
  rw [← x1] at s1
  rw [← x2] at s2
  rw [← x3] at s3
  refine ⟨w1, inds, hnum, b2, by rw [b2]; exact I.length _ _ _, fun k hk => ?_⟩
  obtain ⟨i, x, y, a0, d0, t, q1, q2, q3, q4, q5, q6, q7, q8⟩ := b6 k hk
  exact ⟨i, a0 + x, d0 + y, a0, d0, t, q1, q2, q3, q4, CoverageRunProps.packed_sample rfl b3 s1 r1 k _ q5, CoverageRunProps.packed_sample rfl b4 s2 r2 k _ q6,
    CoverageRunProps.packed_sample rfl b5 s3 r3 k _ q7, sep_le hr0 q8⟩

/-- The pointings and times of a survey table. -/
def ColumnsOf (t : ObsTable) (ra dec time : List ℝ) : Prop :=
  ∀ (i : Nat) a d m, ra[i]? = some a → dec[i]? = some d → time[i]? = some m → num t "ra".toList i = some a ∧ num t "dec".toList i = some d ∧ num t "time".toList i = some m

/-- C149. In a whole run of a model whose position and time come from the visits of a survey that is among the surveys simulated, with at most that survey's radius, no detector footprint or one that holds the disc of the sampler's radius, and any
time window around `t0` that contains `t0`, every object is observed: among its observations is one at the time of the very visit it was sampled from, with a flux that the model allows. -/
theorem C149_observed (I : IntGen σ) (U : UnitGen σ ℝ) {sr rad : Option ℝ} {ra dec time : List ℝ} {P : Pointing} (hP : Pointing.init sr rad ra dec time false false false = .ok P)
    {isBand : Bool} {ev : Heap ℝ σ → PNode ℝ σ → SurveyArg → List ℝ → List Name → SState ℝ → σ → Except Err (List ℝ × σ)} {draw : σ → ℝ × σ} {H : Heap ℝ σ} (hG : GraphOK H)
    {root sid : NodeId} {objs : List NodeId} (hph : Physical H root) {n : Int} (hn1 : n ≠ 1 ∨ P.radius = 0) {args : List SurveyArg} {saveCols paramCols : List Name}
    {offset : Option (List (Option ℝ))} (hoff : offset = none ∨ ∃ b a, offset = some [b, a] ∧ (∀ x, b = some x → 0 ≤ x) ∧ (∀ x, a = some x → 0 ≤ x)) {w : σ} {out : Outcome σ}
    (Q : SurveyArg → SState ℝ → Name → ℝ → ℝ → Prop) (hstd : ∀ c ∈ paramCols, colName c ∉ standardCols) (hbuilt : ∀ a ∈ args, Built a.table)
    (hrad : ∀ a ∈ args, ∃ rad, a.table.radius = some rad ∧ 0 ≤ rad ∧ rad ≤ 180) (hsave : saveCols.Nodup ∧ ∀ c ∈ saveCols, c ∉ baseCols)
    (h : simulateFullWith isBand ev draw H root objs n args saveCols paramCols offset w = .ok out)
    (hev : ∀ nd, out.graph[root]? = some nd → EndToEndProps.Sized (ev out.graph nd))
    (hobs : ∀ nd st (k : Nat) a, out.graph[root]? = some nd → (k : Int) < n → StateOf out.sampled k st → a ∈ args → Fluxes (ev out.graph nd a) st (Q a st))
    {j : Nat} {a : SurveyArg} (ha : args[j]? = some a) {R : ℝ} (haR : a.table.radius = some R) (hR : P.radius ≤ R) (hfp : ∀ fp, a.table.footprint = some fp → ∀ x y a0 d0 turn, sep x y a0 d0 ≤ P.radius * (Real.pi / 180) → fp x y a0 d0 turn = true) (hcols : ColumnsOf a.table ra dec time)
    {nd sn : PNode ℝ σ} (hnd : out.graph[root]? = some nd) (hsn : out.graph[sid]? = some sn)
    (hbody : sn.body = some (pointingBody I U P)) (houts : sn.outputs = ["ra".toList, "dec".toList, "time".toList])
    {sra sdec st0 : Setter ℝ} (hra : ("ra".toList, sra) ∈ nd.setters) (hra' : sra.src = .funcNode sid "ra".toList)
    (hdec : ("dec".toList, sdec) ∈ nd.setters) (hdec' : sdec.src = .funcNode sid "dec".toList) (ht0 : ("t0".toList, st0) ∈ nd.setters) (ht0' : st0.src = .funcNode sid "time".toList) :
    ∃ (N : Nat) (w1 : σ) (inds nobs : List Nat), n = (N : Int) ∧ inds = (I.draw w1 ra.length N).2 ∧ inds.length = N ∧
      nobs.length = N ∧ IsColumn out.table "nobs" N (fun k => nobs[k]?.map .int) ∧
      ∀ k, k < N → ∃ (v i : Nat) (t : ℝ) (st : SState ℝ) (z : ℝ), inds[k]? = some v ∧ time[v]? = some t ∧ sampleValue out.sampled nd.str "t0".toList k = some (.scalar t) ∧
        StateOf out.sampled k st ∧ (∃ c, nobs[k]? = some c ∧ i < c) ∧ (lightcurve out.nested k "mjd".toList).length = nobs[k]?.getD 0 ∧
        MeasuredBy a j v (Q a st) z (lightcurve out.nested k) i := by
  have hmem := List.mem_of_getElem? ha
  obtain ⟨nd', N, w0, nobs, g1, g2, ⟨run, g3, -⟩, g4, g5, -, g7⟩ := FullRunProps.C119_fluxes hG hph Q hstd (List.ne_nil_of_mem hmem) hbuilt hrad hsave h hev hobs
  rw [hnd] at g1; cases g1
  obtain ⟨hn, -, run', h1, h2, -⟩ := FullRunProps.C119_sampled hG h
  have : run' = run := by rw [g3] at h1; exact (Prod.mk.inj (Except.ok.inj h1)).2.symm
  subst this
  obtain ⟨w1, inds, p1, p2, p3, p4⟩ := C149_positions I U hP hG hn hn1 g3 hnd hsn hbody houts hra hra' hdec hdec' ht0 ht0'
  have hN : run'.gs.numSamples = N := by omega
  rw [hN] at p2 p3 p4
  rw [h2] at p4
  refine ⟨N, w1, inds, nobs, g2, p2, p3, g4, g5, fun k hk => ?_⟩
  obtain ⟨v, x, y, a0, d0, t, q1, q2, q3, q4, q5, q6, q7, q8⟩ := p4 k hk
  obtain ⟨st, ra', dec', t0', obs, a1, a2, a3, a4, a5, a6, a7, a8, a9⟩ := g7 k hk
  rw [q5] at a2; cases a2
  rw [q6] at a3; cases a3
  rw [q7] at a4
  have ht : t0' = some t := by
    cases t0' with
    | none => cases a4
    | some z => simp only [cellOf, Option.some.injEq, Val.scalar.injEq] at a4; rw [a4]
  subst ht
  obtain ⟨m1, m2, m3⟩ := hcols v a0 d0 t q2 q3 q4
  have hm : Match a.table (x, y) R (winLo offset (some t)) (winHi offset (some t)) v := by
    refine ⟨a0, d0, m1, m2, q8.trans (mul_le_mul_of_nonneg_right hR (by positivity)), ?_, ?_, ?_⟩
    · intro b hb
      refine ⟨t, m3, ?_⟩
      rcases hoff with rfl | ⟨b', a', rfl, hb', ha'⟩
      · cases hb
      · cases b' with
        | none => cases hb
        | some z => cases hb; have := hb' z rfl; linarith
    · intro b hb
      refine ⟨t, m3, ?_⟩
      rcases hoff with rfl | ⟨b', a', rfl, hb', ha'⟩
      · cases hb
      · cases a' with
        | none => simp [winHi] at hb
        | some z => simp only [winHi, Option.some.injEq] at hb; have := ha' z rfl; linarith
    · intro fp hf
      exact hfp fp hf x y a0 d0 _ q8
  have hin : (j, v) ∈ obs := (a7 j v).2 ⟨a, R, ha, haR, hm⟩
  obtain ⟨i, hi, hiv⟩ := List.getElem_of_mem hin
  obtain ⟨a', e1, e2⟩ := a9 i j v (by rw [List.getElem?_eq_getElem hi, hiv])
  rw [ha] at e1; cases e1
  exact ⟨v, i, t, st, _, q1, q4, q7, a1, ⟨_, a5, hi⟩, by rw [a5]; exact a8 _ (by simp [baseCols]), e2⟩

end LCL.PointingRunProps
