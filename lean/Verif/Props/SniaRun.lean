import Verif.Model.SniaRun
import Verif.Props.SniaRates
import Verif.Props.RangeSearch
import Verif.Props.ObsTable

/-!
# C109: the example run with type Ia supernovae
-/

namespace LCL.SniaRunProps
open LCL LCL.EffectLib LCL.SniaRates LCL.SniaRun LCL.ObsSpec LCL.ObsTable

variable {ρ : Type}

theorem mapM_num (xs : List ℝ) : ∀ (l : List Cell) (rows : List Nat), l.map some = rows.map (fun k => (xs.map Cell.num)[k]?) →
    ∃ v : List ℝ, l.mapM Cell.num? = .ok v ∧ v.map some = rows.map fun k => xs[k]?
  | [], [], _ => ⟨[], rfl, rfl⟩
  | c :: l, k :: rows, h => by
    rw [List.map_cons, List.map_cons, List.cons.injEq] at h
    obtain ⟨v, hv, e⟩ := mapM_num xs l rows h.2
    have h1 := h.1
    rw [List.getElem?_map] at h1
    cases hx : xs[k]? with
    | none => rw [hx] at h1; cases h1
    | some x =>
      rw [hx] at h1
      injection h1 with h1
      subst h1
      refine ⟨x :: v, ?_, by simp [hx, e]⟩
      simp only [List.mapM_cons, hv, Cell.num?]
      rfl
  | [], _ :: _, h => by simp at h
  | _ :: _, [], h => by simp at h

theorem mapM_text (xs : List Name) : ∀ (l : List Cell) (rows : List Nat), l.map some = rows.map (fun k => (xs.map Cell.str)[k]?) →
    ∃ v : List Name, l.mapM Cell.str? = .ok v ∧ v.map some = rows.map fun k => xs[k]?
  | [], [], _ => ⟨[], rfl, rfl⟩
  | c :: l, k :: rows, h => by
    rw [List.map_cons, List.map_cons, List.cons.injEq] at h
    obtain ⟨v, hv, e⟩ := mapM_text xs l rows h.2
    have h1 := h.1
    rw [List.getElem?_map] at h1
    cases hx : xs[k]? with
    | none => rw [hx] at h1; cases h1
    | some x =>
      rw [hx] at h1
      injection h1 with h1
      subst h1
      refine ⟨x :: v, ?_, by simp [hx, e]⟩
      simp only [List.mapM_cons, hv, Cell.str?]
      rfl
  | [], _ :: _, h => by simp at h
  | _ :: _, [], h => by simp at h

/-- Rows selected by a condition on a parallel list. -/
theorem zip_filter (xs : List ℝ) (p : ℝ → Bool) : ∀ (rows : List Nat) (v : List ℝ), v.map some = rows.map (fun k => xs[k]?) →
    ((rows.zip v).filter fun q => p q.2).map (·.1) = rows.filter fun k => match xs[k]? with | some x => p x | none => false
  | [], _, _ => by simp
  | k :: rows, [], h => by simp at h
  | k :: rows, x :: v, h => by
    rw [List.map_cons, List.map_cons, List.cons.injEq] at h
    have ih := zip_filter xs p rows v h.2
    simp only [List.zip_cons_cons, List.filter_cons, ← h.1]
    by_cases hp : p x = true
    · rw [if_pos hp, if_pos hp, List.map_cons, ih]
    · rw [if_neg hp, if_neg hp, ih]

/-- The condition of the lifetime. -/
def Alive (st : SnState) (t : ℝ) : Prop := -20 * (1 + st.z) < t - st.t0 ∧ t - st.t0 < 50 * (1 + st.z)

theorem lifeRows_spec {t : ObsTable} (hb : Built t) (hlab : t.labels = (List.range t.len).map fun (i : Nat) => (i : Int)) {times : List ℝ}
    (ht : t.cols.get? "time".toList = some (times.map .num)) {st : SnState} {rows : List Nat} (h : lifeRows t st = .ok rows) :
    rows.Pairwise (· < ·) ∧ ∀ i, i ∈ rows ↔ Match t (st.ra, st.dec) (7 / 4) none none i ∧ ∃ tm, num t "time".toList i = some tm ∧ Alive st tm := by
  have hwf := (ObsLemmas.built_spec hb).1
  have hlen : (times.map Cell.num).length = t.len := hwf.1 _ (Dict.mem_of_get? ht)
  unfold lifeRows at h
  cases hs : t.rangeSearch (.scalar st.ra) (.scalar st.dec) (some (7 / 4)) .none .none with
  | error e => rw [hs] at h; cases h
  | ok out =>
    rw [hs] at h
    simp only [bind, Except.bind, pure, Except.pure] at h
    obtain ⟨r, qs, lists, hr, hq1, hq2, hll, hout, hmem⟩ := RangeSearchProps.C37_exact hb hs
    cases out with
    | many l => cases h
    | one l =>
      have hl : lists = [l] := by
        rcases hout with ho | ⟨_, _, l', ho1, ho2⟩
        · cases ho
        · injection ho2 with e; rw [ho1, e]
      have hr' : r = 7 / 4 := by
        rcases hr with e | ⟨e, _⟩
        · injection e with e; exact e.symm
        · cases e
      have hqs : qs = [(st.ra, st.dec)] := by
        rw [hl] at hll
        simp only [QArg.values] at hq1 hq2
        rcases qs with _ | ⟨q, _ | _⟩
        · simp at hll
        · simp only [List.map_cons, List.map_nil, List.cons.injEq, Option.some.injEq, and_true] at hq1 hq2
          rw [hq1, hq2]
        · simp at hll
      subst hr' hqs hl
      obtain ⟨hsort, hm⟩ := hmem (by norm_num) (by norm_num) 0 (st.ra, st.dec) l rfl rfl
      have hin : ∀ k ∈ l, k < (times.map Cell.num).length := by
        intro k hk
        obtain ⟨ra, dec, h1, -⟩ := (hm k).1 hk
        rw [hlen]
        unfold num cell at h1
        cases hc : t.cols.get? "ra".toList with
        | none => rw [hc] at h1; cases h1
        | some c =>
          rw [hc] at h1
          have := hwf.1 _ (Dict.mem_of_get? hc)
          by_contra hge
          have hn : c[k]? = none := List.getElem?_eq_none (by simp only at this; omega)
          simp only [Option.bind_some, hn] at h1
          cases h1
      obtain ⟨v, hv1, hv2⟩ := ObsTableProps.loc_range (times.map Cell.num) l hin
      have hgi : t.getItem "time".toList = .ok (times.map .num) := by unfold getItem; rw [ht]
      have hlab' : t.labels = (List.range (times.map Cell.num).length).map fun (i : Nat) => (i : Int) := by rw [hlen]; exact hlab
      obtain ⟨xs, hx1, hx2⟩ := mapM_num times v l hv2
      have hxl : xs.length = l.length := by simpa using congrArg List.length hx2
      simp only [hgi, hlab', hv1, hx1, hxl, if_true] at h
      injection h with h
      rw [zip_filter times (fun x => open Classical in decide (x - st.t0 > -20 * (1 + st.z) ∧ x - st.t0 < 50 * (1 + st.z))) l xs hx2] at h
      subst h
      refine ⟨hsort.filter _, fun i => ?_⟩
      have hnum : num t "time".toList i = times[i]? := by
        unfold num cell
        rw [ht]
        simp only [Option.bind_some, List.getElem?_map]
        cases times[i]? <;> rfl
      rw [List.mem_filter, hm i, hnum]
      apply and_congr_right
      intro _
      cases times[i]? with
      | none => simp
      | some x => simp [Alive]

/-- The text in row `i` of the named column. -/
def text (t : ObsTable) (name : Name) (i : Nat) : Option Name :=
  match cell t name i with
  | some (.str x) => some x
  | _ => none

theorem applyNoise_spec (draw : ρ → ℝ × ρ) : ∀ (p e : List ℝ) (r r' : ρ) (l : List ℝ), applyNoise draw p e r = .ok (l, r') →
    l.length = p.length ∧ e.length = p.length
  | [], [], _, _, _, h => by simp only [applyNoise] at h; cases h; simp
  | f :: fs, e :: es, r, r', l, h => by
    simp only [applyNoise] at h
    split at h
    · cases h
    · cases hh : applyNoise draw fs es (draw r).2 with
      | error e => rw [hh] at h; cases h
      | ok q =>
        rw [hh] at h
        cases h
        obtain ⟨h1, h2⟩ := applyNoise_spec draw fs es _ _ _ hh
        simp [h1, h2]
  | [], _ :: _, _, _, _, h => by simp [applyNoise] at h
  | _ :: _, [], _, _, _, h => by simp [applyNoise] at h

/-- **C109**, what is simulated for one supernova: the observations of a table that was never filtered (rows labelled 0, 1, 2, ...) whose pointing is within 1.75
degrees and that fall into the lifetime of the supernova, 20 days before to 50 days after its `t0`, stretched by `1 + z`; with their times and filters, in the order
of the table. The noise-free fluxes are those the model gives at these times and filters, the errors those the table gives for them, and there is one of
each per observation. The wavelengths are those of the rest frame. -/
theorem C109_observations_partial (draw : ρ → ℝ × ρ) (src : Source ρ) {s : Setting} (hb : Built s.table)
    (hlab : s.table.labels = (List.range s.table.len).map fun (i : Nat) => (i : Int)) {times : List ℝ} {bands : List Name}
    (ht : s.table.cols.get? "time".toList = some (times.map .num)) (hf : s.table.cols.get? "filter".toList = some (bands.map .str))
    {st : SnState} {r r' : Rng ρ} {res : Result} (h : drawState draw src s st r = .ok (res, r')) :
    res.state = st ∧ res.wavesRest = s.waves.map (· / (1 + st.z)) ∧
    ∃ rows : List Nat, rows.Pairwise (· < ·) ∧
      (∀ i, i ∈ rows ↔ Match s.table (st.ra, st.dec) (7 / 4) none none i ∧ ∃ tm, num s.table "time".toList i = some tm ∧ Alive st tm) ∧
      res.times.map some = rows.map (num s.table "time".toList) ∧
      res.filters.map some = rows.map (fun i => (text s.table "filter".toList i).map ("LSST_".toList ++ ·)) ∧
      (∃ r1 r2, src.evalSed res.times s.waves st.state r = .ok (res.flux, r1) ∧ s.toFlam res.flux = .ok res.flam ∧
        src.evalBand res.times res.filters st.state ⟨none, r1.entropy⟩ = .ok (res.perfect, r2)) ∧
      s.error res.perfect rows = .ok res.error ∧
      (res.perfect.length = res.noisy.length ∧ res.error.length = res.noisy.length) := by
  have hwf := (ObsLemmas.built_spec hb).1
  have hlen : (times.map Cell.num).length = s.table.len := hwf.1 _ (Dict.mem_of_get? ht)
  have hlen2 : (bands.map Cell.str).length = s.table.len := hwf.1 _ (Dict.mem_of_get? hf)
  unfold drawState at h
  cases hrows : lifeRows s.table st with
  | error e => rw [hrows] at h; cases h
  | ok rows =>
    rw [hrows] at h
    obtain ⟨hsort, hm⟩ := lifeRows_spec hb hlab ht hrows
    have hnum : ∀ i, num s.table "time".toList i = times[i]? := by
      intro i
      unfold num cell
      rw [ht]
      simp only [Option.bind_some, List.getElem?_map]
      cases times[i]? <;> rfl
    have htext : ∀ i, text s.table "filter".toList i = bands[i]? := by
      intro i
      unfold text cell
      rw [hf]
      simp only [Option.bind_some, List.getElem?_map]
      cases bands[i]? <;> rfl
    have hin : ∀ k ∈ rows, k < s.table.len := by
      intro k hk
      obtain ⟨-, tm, h1, -⟩ := (hm k).1 hk
      rw [hnum] at h1
      have := List.getElem?_eq_some_iff.1 h1
      rw [← hlen, List.length_map]
      exact this.1
    obtain ⟨v, hv1, hv2⟩ := ObsTableProps.loc_range (times.map Cell.num) rows (by rw [hlen]; exact hin)
    obtain ⟨w, hw1, hw2⟩ := ObsTableProps.loc_range (bands.map Cell.str) rows (by rw [hlen2]; exact hin)
    have hgi : s.table.getItem "time".toList = .ok (times.map .num) := by unfold getItem; rw [ht]
    have hgf : s.table.getItem "filter".toList = .ok (bands.map .str) := by unfold getItem; rw [hf]
    obtain ⟨xs, hx1, hx2⟩ := mapM_num times v rows hv2
    obtain ⟨ys, hy1, hy2⟩ := mapM_text bands w rows hw2
    rw [hlen, ← hlab] at hv1
    rw [hlen2, ← hlab] at hw1
    simp only [bind, Except.bind, pure, Except.pure, hgi, hgf, hv1, hw1, hx1, hy1] at h
    cases h1 : src.evalSed xs s.waves st.state r with
    | error e => rw [h1] at h; cases h
    | ok q1 =>
      rw [h1] at h
      dsimp only at h
      cases h2 : s.toFlam q1.1 with
      | error e => rw [h2] at h; cases h
      | ok fl =>
        rw [h2] at h
        dsimp only at h
        unfold unseeded at h
        cases h3 : src.evalBand xs (ys.map ("LSST_".toList ++ ·)) st.state ⟨none, q1.2.entropy⟩ with
        | error e => rw [h3] at h; cases h
        | ok q3 =>
          rw [h3] at h
          dsimp only at h
          cases h4 : s.error q3.1 rows with
          | error e => rw [h4] at h; cases h
          | ok er =>
            rw [h4] at h
            dsimp only at h
            unfold SeededSim.simNoise at h
            dsimp only at h
            cases h5 : applyNoise draw q3.1 er q3.2.entropy with
            | error e => rw [h5] at h; cases h
            | ok q5 =>
              rw [h5] at h
              cases h
              obtain ⟨l1, l2⟩ := applyNoise_spec draw _ _ _ _ _ h5
              refine ⟨rfl, rfl, rows, hsort, hm, ?_, ?_, ⟨q1.2, q3.2, h1, h2, h3⟩, h4, l1.symm, by rw [l2, l1]⟩
              · rw [hx2]
                exact List.map_congr_left fun i _ => (hnum i).symm
              · dsimp only
                rw [List.map_map]
                have := congrArg (List.map (Option.map ("LSST_".toList ++ ·))) hy2
                rw [List.map_map, List.map_map] at this
                have e1 : (some ∘ fun x => "LSST_".toList ++ x : Name → Option Name) = Option.map ("LSST_".toList ++ ·) ∘ some := rfl
                rw [e1, this]
                exact List.map_congr_left fun i _ => by rw [htext]; rfl

theorem drawAll_states (draw : ρ → ℝ × ρ) (src : Source ρ) (s : Setting) : ∀ (sts : List SnState) (r r' : Rng ρ) (l : List Result),
    drawAll draw src s sts r = .ok (l, r') → l.length = sts.length ∧
      ∀ (i : Nat) st, sts[i]? = some st → ∃ res r1 r2, l[i]? = some res ∧ drawState draw src s st r1 = .ok (res, r2)
  | [], _, _, _, h => by cases h; simp
  | st :: sts, r, r', l, h => by
    simp only [drawAll] at h
    cases h1 : drawState draw src s st r with
    | error e => rw [h1] at h; cases h
    | ok q =>
      rw [h1] at h
      dsimp only at h
      cases h2 : drawAll draw src s sts q.2 with
      | error e => rw [h2] at h; cases h
      | ok q2 =>
        rw [h2] at h
        cases h
        obtain ⟨hl, hi⟩ := drawAll_states draw src s sts _ _ _ h2
        refine ⟨by simp [hl], ?_⟩
        intro i st' hst
        cases i with
        | zero => cases hst; exact ⟨q.1, r, q.2, rfl, h1⟩
        | succ i => exact hi i st' hst

/-- **C109**, the run: the redshifts are sampled from the expected numbers in a hundred bins between 0.1 and 0.4, at their middles; there is one result per sampled
supernova, in order. Their number is the one asked for or, if none is given, the expected number in the solid angle, rounded down. -/
theorem C109_run (draw : ρ → ℝ × ρ) (fresh : ρ → ρ × ρ) (construct : List (ℝ × ℝ) → Source ρ) (s : Setting) (nsample : Option Nat) (solidAngle : Option ℝ)
    (r r' : Rng ρ) (l : List Result) (h : run draw fresh construct s nsample solidAngle r = .ok (l, r')) :
    ∃ nsn z n states e r1, numPerBin 0.1 0.4 100 none 70 0.3 = .ok (nsn, z) ∧ (construct (z.zip nsn)).sample n ⟨none, e⟩ = .ok (states, r1) ∧
      (nsample = some n ∨ nsample = none ∧ ∃ a v mean, solidAngle = some a ∧ numPerBin 0.1 0.4 1 (some a) 70 0.3 = .ok ([v], mean) ∧
        (0 ≤ v → (n : ℝ) ≤ v ∧ v < n + 1)) ∧
      l.length = states.length ∧
      ∀ (i : Nat) st, states[i]? = some st → ∃ res r2 r3, l[i]? = some res ∧ drawState draw (construct (z.zip nsn)) s st r2 = .ok (res, r3) := by
  have hrun : ∃ r0 : Rng ρ, (match numPerBin 0.1 0.4 100 none 70 0.3 with
      | .error e => .error e
      | .ok (nsn, z) => match numSamples nsample solidAngle with
        | .error e => .error e
        | .ok n =>
          let src := construct (z.zip nsn)
          match unseeded (src.sample n) r0 with
          | .error e => .error e
          | .ok (states, r) => drawAll draw src s states r) = (.ok (l, r') : Except Err (List Result × Rng ρ)) := ⟨_, h⟩
  obtain ⟨r0, hrun⟩ := hrun
  clear h
  cases h1 : numPerBin 0.1 0.4 100 none 70 0.3 with
  | error e => rw [h1] at hrun; cases hrun
  | ok q =>
    rw [h1] at hrun
    dsimp only at hrun
    cases h2 : numSamples nsample solidAngle with
    | error e => rw [h2] at hrun; cases hrun
    | ok n =>
      rw [h2] at hrun
      dsimp only at hrun
      unfold unseeded at hrun
      cases h3 : (construct (q.2.zip q.1)).sample n ⟨none, r0.entropy⟩ with
      | error e => rw [h3] at hrun; cases hrun
      | ok q3 =>
        rw [h3] at hrun
        dsimp only at hrun
        obtain ⟨hl, hi⟩ := drawAll_states draw _ s _ _ _ _ hrun
        refine ⟨q.1, q.2, n, q3.1, r0.entropy, q3.2, rfl, h3, ?_, hl, hi⟩
        cases nsample with
        | some m =>
          cases h2
          exact Or.inl rfl
        | none =>
          right
          refine ⟨rfl, ?_⟩
          cases solidAngle with
          | none => cases h2
          | some a =>
            simp only [numSamples] at h2
            cases h4 : numPerBin 0.1 0.4 1 (some a) 70 0.3 with
            | error e => rw [h4] at h2; cases h2
            | ok q4 =>
              obtain ⟨num, mean⟩ := q4
              rw [h4] at h2
              dsimp only at h2
              have hlen : num.length = 1 := by
                have := SniaProps.num_ok (zmin := 0.1) (zmax := 0.4) (n := 1) one_pos (some a) (h0 := 70) (om := 0.3) (by norm_num)
                rw [Nat.cast_one, h4] at this
                injection this with this
                injection this with this _
                rw [this]
                simp
              obtain ⟨v, rfl⟩ := List.length_eq_one_iff.1 hlen
              refine ⟨a, v, mean, rfl, h4, ?_⟩
              intro hv
              simp only [List.getElem?_cons_zero] at h2
              injection h2 with h2
              unfold pyInt at h2
              rw [if_pos hv] at h2
              have hfl := Int.floor_nonneg.2 hv
              have hcast : ((n : Int) : ℝ) = (⌊v⌋ : ℝ) := by
                rw [← h2, Int.toNat_of_nonneg hfl]
              rw [Int.cast_natCast] at hcast
              rw [hcast]
              exact ⟨Int.floor_le v, Int.lt_floor_add_one v⟩

/-! ## What fails -/

theorem search_here {tree : List (ℝ × ℝ × ℝ)} (h : ∀ p ∈ tree, p = toCart 0 0) : queryBall tree (toCart 0 0) (chordRadius (7 / 4)) = List.range tree.length := by
  have hpi := Real.pi_pos
  have hchord : 0 ≤ chordRadius (7 / 4) := by
    unfold chordRadius
    have : 0 ≤ Real.sin (7 / 4 * (Real.pi / 180) / 2) := Real.sin_nonneg_of_nonneg_of_le_pi (by positivity) (by linarith)
    linarith
  unfold queryBall
  apply List.filter_eq_self.2
  intro i hi
  rw [List.mem_range] at hi
  rw [List.getD_eq_getElem?_getD, List.getElem?_eq_getElem hi, Option.getD_some]
  simp [h _ (List.getElem_mem hi), RangeSearchProps.dist_self, hchord]

theorem range_here {t : ObsTable} (h : ∀ p ∈ t.tree, p = toCart 0 0) (hf : t.footprint = none) :
    t.rangeSearch (.scalar 0) (.scalar 0) (some (7 / 4)) .none .none = .ok (.one (List.range t.tree.length)) := by
  have hq : queryPoints (.scalar 0) (.scalar 0) = .ok [(0, 0)] := rfl
  have hr : (some (7 / 4 : ℝ) <|> t.radius) = some (7 / 4) := rfl
  unfold rangeSearch
  rw [hq]
  simp only [hr, List.map_cons, List.map_nil, search_here h, timeStep, TArg.isNone, and_self, if_true,
    footprintStep, hf, QArg.isScalar, List.headD_cons]

/-- A supernova at (0, 0) with its maximum at 7. -/
def demoState : SnState := ⟨[], 0, 0, 7, 0⟩

/-- **C109 fails on a filtered table**: after keeping only the second row, the row is found (as number 0), but its time is looked up under the label 0,
which is gone. -/
theorem C109_filtered_counterexample (draw : ρ → ℝ × ρ) (src : Source ρ) (error : List ℝ → List Nat → Except Err (List ℝ)) (waves : List ℝ)
    (toFlam : Mat ℝ → Except Err (Mat ℝ)) (r : Rng ρ) :
    Built ObsTableProps.secondTable ∧ ObsTableProps.secondTable.rangeSearch (.scalar 0) (.scalar 0) (some (7 / 4)) .none .none = .ok (.one [0]) ∧
    drawState draw src ⟨ObsTableProps.secondTable, error, waves, toFlam⟩ demoState r = .error .keyError := by
  have hs : ObsTableProps.secondTable.rangeSearch (.scalar 0) (.scalar 0) (some (7 / 4)) .none .none = .ok (.one [0]) :=
    range_here (by simp [ObsTableProps.secondTable]) rfl
  refine ⟨.filter ObsTableProps.twoTable_built ObsTableProps.secondTable_filter, hs, ?_⟩
  have : lifeRows ObsTableProps.secondTable demoState = .error .keyError := by
    unfold lifeRows
    have hs' : ObsTableProps.secondTable.rangeSearch (.scalar demoState.ra) (.scalar demoState.dec) (some (7 / 4)) .none .none = .ok (.one [0]) := hs
    rw [hs']
    rfl
  unfold drawState
  simp only [this]
  rfl

/-- What the caller sees: the results or the error. -/
def visible {β : Type} : Except Err (β × Rng ρ) → Except Err β
  | .error e => .error e
  | .ok (b, _) => .ok b

/-- A model whose flux is not random, like the SALT model of the example. -/
def Deterministic (src : Source ρ) : Prop := ∃ F : List ℝ → List ℝ → SState ℝ → Except Err (Mat ℝ), ∀ ts ws st r,
  src.evalSed ts ws st r = match F ts ws st with | .error e => .error e | .ok m => .ok (m, r)

/-- The same result, and the same entropy left. -/
def Same {β : Type} : Except Err (β × Rng ρ) → Except Err (β × Rng ρ) → Prop
  | .error e, .error e' => e = e'
  | .ok (b, r), .ok (b', r') => b = b' ∧ r.entropy = r'.entropy
  | _, _ => False

theorem same_unseeded {β : Type} (f : Rng ρ → Except Err (β × Rng ρ)) {r r' : Rng ρ} (h : r.entropy = r'.entropy) : Same (unseeded f r) (unseeded f r') := by
  unfold unseeded
  rw [h]
  cases f ⟨none, r'.entropy⟩ with
  | error e => exact rfl
  | ok q => exact ⟨rfl, rfl⟩

theorem same_bind {β γ : Type} {x y : Except Err (β × Rng ρ)} (h : Same x y) {f g : β × Rng ρ → Except Err (γ × Rng ρ)}
    (hfg : ∀ b r r', r.entropy = r'.entropy → Same (f (b, r)) (g (b, r'))) : Same (x >>= f) (y >>= g) := by
  rcases x with e | ⟨b, r⟩ <;> rcases y with e' | ⟨b', r'⟩
  · exact h
  · exact h.elim
  · exact h.elim
  · obtain ⟨rfl, h2⟩ := h
    exact hfg b r r' h2

theorem same_step {β γ : Type} (x : Except Err β) {f g : β → Except Err (γ × Rng ρ)} (hfg : ∀ b, Same (f b) (g b)) : Same (x >>= f) (x >>= g) := by
  cases x with
  | error e => exact rfl
  | ok b => exact hfg b

theorem draw_same (draw : ρ → ℝ × ρ) {src : Source ρ} (hd : Deterministic src) (s : Setting) (st : SnState) {r r' : Rng ρ} (h : r.entropy = r'.entropy) :
    Same (drawState draw src s st r) (drawState draw src s st r') := by
  obtain ⟨F, hF⟩ := hd
  unfold drawState
  refine same_step _ fun rows => same_step _ fun c => same_step _ fun l => same_step _ fun times => same_step _ fun c2 => same_step _ fun l2 => same_step _ fun bands => ?_
  refine same_bind ?_ ?_
  · rw [hF, hF]
    cases F times s.waves st.state with
    | error e => exact rfl
    | ok m => exact ⟨rfl, h⟩
  · intro flux r r' h
    refine same_step _ fun flam => same_bind (same_unseeded _ h) ?_
    intro perfect r r' h
    refine same_step _ fun er => same_bind (same_unseeded _ h) ?_
    intro noisy r r' h
    exact ⟨rfl, h⟩

theorem all_same (draw : ρ → ℝ × ρ) {src : Source ρ} (hd : Deterministic src) (s : Setting) : ∀ (sts : List SnState) {r r' : Rng ρ}, r.entropy = r'.entropy →
    Same (drawAll draw src s sts r) (drawAll draw src s sts r')
  | [], _, _, h => ⟨rfl, h⟩
  | st :: sts, r, r', h => by
    have h1 := draw_same draw hd s st h
    simp only [drawAll]
    cases hx : drawState draw src s st r with
    | error e =>
      cases hy : drawState draw src s st r' with
      | error e' => rw [hx, hy] at h1; exact h1
      | ok q => rw [hx, hy] at h1; exact h1.elim
    | ok q =>
      cases hy : drawState draw src s st r' with
      | error e' => rw [hx, hy] at h1; exact h1.elim
      | ok q' =>
        rw [hx, hy] at h1
        have h2 := all_same draw hd s sts (r := q.2) (r' := q'.2) h1.2
        dsimp only
        cases hx2 : drawAll draw src s sts q.2 with
        | error e =>
          cases hy2 : drawAll draw src s sts q'.2 with
          | error e' => rw [hx2, hy2] at h2; exact h2
          | ok w => rw [hx2, hy2] at h2; exact h2.elim
        | ok w =>
          cases hy2 : drawAll draw src s sts q'.2 with
          | error e' => rw [hx2, hy2] at h2; exact h2.elim
          | ok w' =>
            rw [hx2, hy2] at h2
            refine ⟨?_, h2.2⟩
            rw [h1.1, h2.1]

/-- **C109 fails for the generator** `rng_info`: for every model whose flux is not random, the generator given has no influence on any result; the parameters are
sampled and the noise is drawn without it. -/
theorem C109_generator_counterexample (draw : ρ → ℝ × ρ) (fresh : ρ → ρ × ρ) (construct : List (ℝ × ℝ) → Source ρ) (hd : ∀ d, Deterministic (construct d))
    (s : Setting) (nsample : Option Nat) (solidAngle : Option ℝ) (g g' e : ρ) :
    visible (run draw fresh construct s nsample solidAngle ⟨some g, e⟩) = visible (run draw fresh construct s nsample solidAngle ⟨some g', e⟩) := by
  unfold run
  dsimp only
  cases numPerBin 0.1 0.4 100 none 70 0.3 with
  | error e => rfl
  | ok q =>
    dsimp only
    cases numSamples nsample solidAngle with
    | error e => rfl
    | ok n =>
      dsimp only
      unfold unseeded
      cases (construct (q.2.zip q.1)).sample n ⟨none, e⟩ with
      | error e => rfl
      | ok q3 =>
        dsimp only
        have := all_same draw (hd (q.2.zip q.1)) s q3.1 (r := ⟨some g, q3.2.entropy⟩) (r' := ⟨some g', q3.2.entropy⟩) rfl
        revert this
        cases drawAll draw (construct (q.2.zip q.1)) s q3.1 ⟨some g, q3.2.entropy⟩ <;> cases drawAll draw (construct (q.2.zip q.1)) s q3.1 ⟨some g', q3.2.entropy⟩
        · intro h; exact congrArg Except.error h
        · intro h; exact h.elim
        · intro h; exact h.elim
        · intro h; exact congrArg Except.ok h.1

/-- A generator that counts, a source with a constant flux of one, and errors of one. -/
def demoDraw (x : ℝ) : ℝ × ℝ := (x, x + 1)
def demoSource : Source ℝ := ⟨fun n r => .ok (List.replicate n demoState, r), fun ts ws _ r => .ok (ts.map fun _ => ws.map fun _ => 1, r), fun ts _ _ r => .ok (ts.map fun _ => 1, r)⟩
noncomputable def demoSetting : Setting := ⟨ObsTableProps.twoTable, fun p _ => .ok (p.map fun _ => 1), [5000], fun m => .ok m⟩

theorem demo_rows : lifeRows ObsTableProps.twoTable demoState = .ok [0, 1] := by
  unfold lifeRows
  have hs : ObsTableProps.twoTable.rangeSearch (.scalar demoState.ra) (.scalar demoState.dec) (some (7 / 4)) .none .none = .ok (.one [0, 1]) :=
    range_here (by simp [ObsTableProps.twoTable]) rfl
  rw [hs]
  have hg : ObsTableProps.twoTable.getItem "time".toList = .ok [.num 7, .num 8] := rfl
  have hl : ObsTable.loc ObsTableProps.twoTable.labels [.num 7, .num 8] [0, 1] = .ok [.num 7, .num 8] := rfl
  have hm : List.mapM Cell.num? [.num 7, .num 8] = .ok [7, 8] := rfl
  simp only [bind, Except.bind, pure, Except.pure, hg, hl, hm]
  norm_num [demoState]

theorem demo_draw (r : Rng ℝ) : ∃ r', drawState demoDraw demoSource demoSetting demoState r =
    .ok (⟨[5000], [7, 8], ["LSST_g".toList, "LSST_r".toList], [[1], [1]], [[1], [1]], [1, 1], [1, 1], [1 + 1 * r.entropy, 1 + 1 * (r.entropy + 1)], demoState⟩, r') := by
  have hg : demoSetting.table.getItem "time".toList = .ok [.num 7, .num 8] := rfl
  have hf : demoSetting.table.getItem "filter".toList = .ok [.str "g".toList, .str "r".toList] := rfl
  have hl : ObsTable.loc demoSetting.table.labels [.num 7, .num 8] [0, 1] = .ok [.num 7, .num 8] := rfl
  have hl2 : ObsTable.loc demoSetting.table.labels [.str "g".toList, .str "r".toList] [0, 1] = .ok [.str "g".toList, .str "r".toList] := rfl
  have hm : List.mapM Cell.num? [.num 7, .num 8] = .ok [7, 8] := rfl
  have hm2 : List.mapM Cell.str? [.str "g".toList, .str "r".toList] = .ok ["g".toList, "r".toList] := rfl
  have hn : applyNoise demoDraw [1, 1] [1, 1] r.entropy = .ok ([1 + 1 * r.entropy, 1 + 1 * (r.entropy + 1)], r.entropy + 1 + 1) := by
    unfold applyNoise applyNoise applyNoise
    simp only [demoDraw]
    rw [if_neg (by norm_num), if_neg (by norm_num)]
  refine ⟨⟨r.given, r.entropy + 1 + 1⟩, ?_⟩
  unfold drawState
  have hrows : lifeRows demoSetting.table demoState = .ok [0, 1] := demo_rows
  simp only [bind, Except.bind, pure, Except.pure, hrows, hg, hf, hl, hl2, hm, hm2, unseeded, SeededSim.simNoise]
  have e1 : ∀ ws st q, demoSource.evalSed [7, 8] ws st q = .ok ([ws.map fun _ => 1, ws.map fun _ => 1], q) := fun _ _ _ => rfl
  have e2 : ∀ fs st q, demoSource.evalBand [7, 8] fs st q = .ok ([1, 1], q) := fun _ _ _ => rfl
  have e3 : ∀ rows, demoSetting.error [1, 1] rows = .ok [1, 1] := fun _ => rfl
  have e4 : ∀ m, demoSetting.toFlam m = .ok m := fun _ => rfl
  simp only [e1, e2, e3, e4, hn]
  have e5 : demoSetting.waves = [5000] := rfl
  have e6 : demoState.z = 0 := rfl
  rw [e5, e6]
  norm_num
  exact ⟨rfl, rfl⟩

/-- **C109 fails for reproducibility**: with the same generator given twice, the noise of the example differs, for two different states of the entropy of the
system. -/
theorem C109_seed_counterexample (fresh : ℝ → ℝ × ℝ) (g e e' : ℝ) (he : e ≠ e') :
    ∃ res res' r r', run demoDraw fresh (fun _ => demoSource) demoSetting (some 1) none ⟨some g, e⟩ = .ok ([res], r) ∧
      run demoDraw fresh (fun _ => demoSource) demoSetting (some 1) none ⟨some g, e'⟩ = .ok ([res'], r') ∧ res.perfect = res'.perfect ∧ res.noisy ≠ res'.noisy := by
  have hrun : ∀ x : ℝ, ∃ r', run demoDraw fresh (fun _ => demoSource) demoSetting (some 1) none ⟨some g, x⟩ =
      .ok ([⟨[5000], [7, 8], ["LSST_g".toList, "LSST_r".toList], [[1], [1]], [[1], [1]], [1, 1], [1, 1], [1 + 1 * x, 1 + 1 * (x + 1)], demoState⟩], r') := by
    intro x
    have hnum := SniaProps.num_ok (zmin := 0.1) (zmax := 0.4) (n := 100) (by norm_num) none (h0 := 70) (om := 0.3) (by norm_num)
    rw [Nat.cast_ofNat] at hnum
    obtain ⟨r', hd⟩ := demo_draw ⟨some g, x⟩
    unfold run
    dsimp only
    rw [hnum]
    dsimp only [numSamples]
    have hu : unseeded (demoSource.sample 1) ⟨some g, x⟩ = .ok ([demoState], ⟨some g, x⟩) := rfl
    rw [hu]
    dsimp only
    unfold drawAll
    rw [hd]
    exact ⟨r', rfl⟩
  obtain ⟨r1, h1⟩ := hrun e
  obtain ⟨r2, h2⟩ := hrun e'
  refine ⟨_, _, r1, r2, h1, h2, rfl, ?_⟩
  intro h
  simp only [List.cons.injEq, one_mul, add_right_inj] at h
  exact he h.1

/-- The example meets the hypotheses of `C109_observations_partial`: both observations lie within the lifetime. -/
example : Built demoSetting.table ∧ demoSetting.table.labels = (List.range demoSetting.table.len).map (fun (i : Nat) => (i : Int)) ∧
    demoSetting.table.cols.get? "time".toList = some ([7, 8].map .num) ∧ demoSetting.table.cols.get? "filter".toList = some (["g".toList, "r".toList].map .str) :=
  ⟨ObsTableProps.twoTable_built, rfl, rfl, rfl⟩

end LCL.SniaRunProps
