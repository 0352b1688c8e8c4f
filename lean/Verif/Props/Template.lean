import Verif.Lemmas.Template
import Mathlib.Tactic.NormNum

/-!
# Property C49: lightcurve templates
-/

namespace LCL.TemplateProps
open LCL LCL.TemplateSpec LCL.TemplateLemmas

theorem init_split {source : LcSource} {t0 : ℝ} {periodic mags : Bool} {baseline : Option (Dict Name ℝ)} {d : LcData}
    (h : lcInit source t0 periodic mags baseline = .ok d) :
    ∃ inp, lcSplit source = .ok inp ∧ (∀ p ∈ inp, (p.2.cols = 2 ∨ p.2.cols = 3) ∧ Inc p.2.rows) ∧
      ((periodic = false ∧ lcFinish (inp.map fun p => (p.1, moved t0 (conv mags) p.2.rows)) t0 none mags baseline = .ok d) ∨
       (periodic = true ∧ ∃ r, lcPeriodic (inp.map fun p => (p.1, moved t0 (conv mags) p.2.rows)) t0 = .ok r ∧
          lcFinish r.1 r.2.1 (some r.2.2) mags baseline = .ok d)) := by
  unfold lcInit at h
  cases h1 : lcSplit source with
  | error e => rw [h1] at h; cases h
  | ok inp =>
    rw [h1] at h
    dsimp only at h
    cases h2 : lcShiftAll t0 mags inp with
    | error e => rw [h2] at h; cases h
    | ok curves =>
      rw [h2] at h
      dsimp only at h
      obtain ⟨e, hall⟩ := shiftAll_spec h2
      refine ⟨inp, rfl, hall, ?_⟩
      rw [← e]
      cases periodic with
      | false => exact Or.inl ⟨rfl, h⟩
      | true =>
        right
        refine ⟨rfl, ?_⟩
        rw [if_pos rfl] at h
        cases h3 : lcPeriodic curves t0 with
        | error e => rw [h3] at h; cases h
        | ok r => rw [h3] at h; exact ⟨r, rfl, h⟩

theorem periodic_spec {curves : Dict Name (List (ℝ × ℝ))} {t0 : ℝ} {r : Dict Name (List (ℝ × ℝ)) × ℝ × ℝ} (h : lcPeriodic curves t0 = .ok r) :
    ∃ g first rest a b, curves = (g, first) :: rest ∧ 2 ≤ first.length ∧ lcCheckAll first curves.values = .ok () ∧
      first.head? = some a ∧ first.getLast? = some b ∧ 0 < b.1 - a.1 ∧ r.2.2 = b.1 - a.1 ∧
      ((isClose a.1 0 ∧ r.1 = curves ∧ r.2.1 = t0) ∨ (¬ isClose a.1 0 ∧ t0 = 0 ∧ r.1 = lcMove a.1 curves ∧ r.2.1 = a.1)) := by
  cases curves with
  | nil => cases h
  | cons p rest =>
    obtain ⟨g, first⟩ := p
    unfold lcPeriodic at h
    dsimp only at h
    split at h
    · cases h
    rename_i hl
    cases hc : lcCheckAll first (Dict.values ((g, first) :: rest)) with
    | error e => rw [hc] at h; cases h
    | ok u =>
      rw [hc] at h
      dsimp only at h
      cases ha : first.head? with
      | none => rw [ha] at h; cases h
      | some a =>
        cases hb : first.getLast? with
        | none => rw [ha, hb] at h; cases h
        | some b =>
          rw [ha, hb] at h
          dsimp only at h
          refine ⟨g, first, rest, a, b, rfl, by omega, hc, ha, hb, ?_⟩
          split at h
          · cases h
          rename_i hp
          split at h
          · rename_i hcl
            injection h with h
            subst h
            exact ⟨not_le.1 hp, rfl, Or.inl ⟨hcl, rfl, rfl⟩⟩
          · rename_i hcl
            split at h
            · cases h
            rename_i ht
            rw [not_not] at ht
            injection h with h
            subst h
            exact ⟨not_le.1 hp, rfl, Or.inr ⟨hcl, ht, rfl, rfl⟩⟩

theorem pyMod_add (t P : ℝ) (hP : 0 < P) (k : ℤ) : pyMod (t + k * P) P = pyMod t P := by
  unfold pyMod
  have : (t + k * P) / P = t / P + k := by field_simp
  rw [this, Int.floor_add_intCast]
  push_cast
  ring

theorem pyMod_range (t P : ℝ) (hP : 0 < P) : 0 ≤ pyMod t P ∧ pyMod t P < P := by
  unfold pyMod
  have h1 := Int.floor_le (t / P)
  have h2 := Int.lt_floor_add_one (t / P)
  rw [le_div_iff₀ hP] at h1
  rw [div_lt_iff₀ hP] at h2
  constructor <;> nlinarith

/-- **C49**: a periodic template has a positive period and gives the same fluxes at any times that differ by whole periods. -/
theorem C49_periodic_repeats {source : LcSource} {t0 : ℝ} {mags : Bool} {baseline : Option (Dict Name ℝ)} {d : LcData}
    (h : lcInit source t0 true mags baseline = .ok d) :
    ∃ P, d.period = some P ∧ 0 < P ∧ ∀ (f : Name) (times times' : List ℝ),
      List.Forall₂ (fun s t => ∃ k : ℤ, s = t + k * P) times' times → lcEval d times' f = lcEval d times f := by
  obtain ⟨inp, _, _, h2⟩ := init_split h
  rcases h2 with ⟨hf, _⟩ | ⟨_, r, hr, hfin⟩
  · cases hf
  obtain ⟨g, first, rest, a, b, _, _, _, _, _, hpos, hP, _⟩ := periodic_spec hr
  obtain ⟨_, _, hper, _⟩ := finish_spec hfin
  refine ⟨r.2.2, hper, by rw [hP]; exact hpos, ?_⟩
  intro f times times' hall
  have hmap : ∀ (lc : List (ℝ × ℝ)) (lo hi base : ℝ), times'.map (fun t => lcValue lc lo hi base (lcWrap d.period t)) =
      times.map (fun t => lcValue lc lo hi base (lcWrap d.period t)) := by
    intro lc lo hi base
    induction hall with
    | nil => rfl
    | cons hk _ ih =>
      obtain ⟨k, hk⟩ := hk
      rw [List.map_cons, List.map_cons, ih, hper]
      unfold lcWrap
      dsimp only
      rw [hk, pyMod_add _ _ (by rw [hP]; exact hpos)]
  unfold lcEval
  cases d.curves.get? f with
  | none => rfl
  | some lc =>
    cases d.minTimes.get? f with
    | none => rfl
    | some lo =>
      cases d.maxTimes.get? f with
      | none => rfl
      | some hi => dsimp only; rw [hmap]

/-- The flux a user means outside of the rows: the given baseline, or none. -/
noncomputable def baseFlux (mags : Bool) (baseline : Option (Dict Name ℝ)) (f : Name) : ℝ :=
  match baseline with
  | none => 0
  | some b => conv mags ((b.get? f).getD 0)

/-- **C49** (part): a template that is not periodic gives, at every time after the reference epoch `t0`, the baseline outside of
the rows of the filter and the straight lines between the rows inside, with magnitudes converted to fluxes.

Missing: magnitudes without a baseline, see `C49_magnitude_baseline_counterexample`. -/
theorem C49_nonperiodic_partial {source : LcSource} {t0 : ℝ} {mags : Bool} {baseline : Option (Dict Name ℝ)} {d : LcData}
    (h : lcInit source t0 false mags baseline = .ok d) {f : Name} {rows : List (ℝ × ℝ)} (hd : DataOf source f rows)
    (hb : ¬ (mags = true ∧ baseline = none)) (times : List ℝ) :
    ∃ vals, lcEval d times f = .ok vals ∧ vals.length = times.length ∧
      ∀ (i : Nat) t v, times[i]? = some t → vals[i]? = some v → FluxAt rows (conv mags) (baseFlux mags baseline f) (t + t0) v := by
  obtain ⟨inp, hsp, hall, h2⟩ := init_split h
  rcases h2 with ⟨_, hfin⟩ | ⟨hf, _⟩
  swap
  · cases hf
  obtain ⟨lc, hlc, hrows⟩ := split_data hsp hd
  have hmem : (f, lc) ∈ inp := Dict.mem_of_get? hlc
  have hinc : Inc rows := hrows ▸ (hall _ hmem).2
  obtain ⟨hc, _, hper, hlo, hhi, hne, b, hbl, hbase⟩ := finish_spec hfin
  have hcur : d.curves.get? f = some (moved t0 (conv mags) rows) := by
    rw [hc, get?_map_pair (fun lc : LcInput => moved t0 (conv mags) lc.rows), hlc, ← hrows]; rfl
  rw [hc] at hcur
  have hrne : rows ≠ [] := by
    intro e
    have := hne _ (Dict.mem_of_get? hcur)
    rw [e] at this
    exact this rfl
  obtain ⟨a, ha⟩ : ∃ a, rows.head? = some a := by
    cases rows with
    | nil => exact absurd rfl hrne
    | cons a l => exact ⟨a, rfl⟩
  obtain ⟨z, hz⟩ : ∃ z, rows.getLast? = some z := ⟨_, List.getLast?_eq_some_getLast hrne⟩
  have hlo' : d.minTimes.get? f = some (a.1 - t0) := by
    rw [hlo, hcur]; simp [moved, ha]
  have hhi' : d.maxTimes.get? f = some (z.1 - t0) := by
    rw [hhi, hcur]; simp [moved, hz]
  have hbv : (d.baseline.get? f).getD 0 = baseFlux mags baseline f := by
    rw [hbase, convert_get]
    unfold baseFlux
    cases baseline with
    | none =>
      have hm : mags = false := by cases mags with | false => rfl | true => exact absurd ⟨rfl, rfl⟩ hb
      subst hm
      unfold lcBaseline at hbl
      injection hbl with hbl
      subst hbl
      rw [get?_map_pair (fun _ : List (ℝ × ℝ) => (0 : ℝ)), hcur]
      rfl
    | some b0 =>
      unfold lcBaseline at hbl
      dsimp only at hbl
      split at hbl
      · rename_i hk
        injection hbl with hbl
        subst hbl
        have hin : f ∈ Dict.keys (inp.map fun p => (p.1, moved t0 (conv mags) p.2.rows)) :=
          List.mem_map.2 ⟨_, Dict.mem_of_get? hcur, rfl⟩
        have := hk f hin
        unfold Dict.has at this
        cases hg : b0.get? f with
        | none => rw [hg] at this; cases this
        | some v => dsimp only; rw [hg]; rfl
      · cases hbl
  refine ⟨times.map fun t => lcValue (moved t0 (conv mags) rows) (a.1 - t0) (z.1 - t0) (baseFlux mags baseline f) t, ?_, by simp, ?_⟩
  · unfold lcEval
    rw [hc, hcur, hlo', hhi']
    dsimp only
    rw [hbv, hper]
    rfl
  · intro i t v ht hv
    rw [List.getElem?_map, ht] at hv
    simp only [Option.map_some, Option.some.injEq] at hv
    subst hv
    exact lcValue_spec hinc t0 (conv mags) ha hz _ t

/-- **C49**: a filter without a curve is an error. -/
theorem C49_unknown_filter (d : LcData) (times : List ℝ) {f : Name} (hf : d.curves.get? f = none) : lcEval d times f = .error .valueError := by
  unfold lcEval; rw [hf]

/-- **C49** (part): a periodic template whose filters all have the same times, and whose reference epoch is its first time (or is
given as 0 and found from the data), gives at every time the value of the straight lines through the rows at the same phase:
`P` is the time between the first and the last row.

Missing: data whose times are only nearly equal, see `C49_times_counterexample`. -/
theorem C49_periodic_values_partial {inp : Dict Name LcInput} {t0 : ℝ} {mags : Bool} {baseline : Option (Dict Name ℝ)} {d : LcData}
    (h : lcInit (.dict inp) t0 true mags baseline = .ok d) {f : Name} {lc : LcInput} (hf : inp.get? f = some lc) {a b : ℝ × ℝ}
    (ha : lc.rows.head? = some a) (hb : lc.rows.getLast? = some b)
    (hsame : ∀ p ∈ inp, p.2.rows.map (·.1) = lc.rows.map (·.1)) (hstart : t0 = a.1 ∨ (t0 = 0 ∧ ¬ isClose a.1 0)) (times : List ℝ) :
    d.period = some (b.1 - a.1) ∧ d.t0 = a.1 ∧
    ∃ vals, lcEval d times f = .ok vals ∧ vals.length = times.length ∧
      ∀ (i : Nat) t v, times[i]? = some t → vals[i]? = some v →
        ∃ (k : ℤ) (s : ℝ), s = a.1 + t - k * (b.1 - a.1) ∧ a.1 ≤ s ∧ s < b.1 ∧ OnCurve lc.rows (conv mags) s v := by
  obtain ⟨inp', hsp, hall, h2⟩ := init_split h
  have : inp' = inp := by unfold lcSplit at hsp; injection hsp with hsp; exact hsp.symm
  subst this
  rcases h2 with ⟨hx, _⟩ | ⟨_, r, hr, hfin⟩
  · cases hx
  obtain ⟨g, first, rest, a', b', hcur, hlen, hchk, ha', hb', hpos, hP, hcase⟩ := periodic_spec hr
  obtain ⟨hc, ht0, hper, hlo, hhi, hne, bl, hbl, hbase⟩ := finish_spec hfin
  have hmem : (f, lc) ∈ inp' := Dict.mem_of_get? hf
  have hinc : Inc lc.rows := (hall _ hmem).2
  -- the first curve has the same times
  have hfirst : first.map (·.1) = lc.rows.map (fun r => r.1 - t0) := by
    cases inp' with
    | nil => cases hmem
    | cons p l =>
      rw [List.map_cons] at hcur
      injection hcur with e1 e2
      injection e1 with e3 e4
      have := hsame p List.mem_cons_self
      rw [← e4]
      unfold moved
      rw [List.map_map]
      have e5 : p.2.rows.map (fun r => r.1 - t0) = (p.2.rows.map (·.1)).map (fun x => x - t0) := by rw [List.map_map]; rfl
      have e6 : lc.rows.map (fun r => r.1 - t0) = (lc.rows.map (·.1)).map (fun x => x - t0) := by rw [List.map_map]; rfl
      rw [e6, ← this, ← e5]
      rfl
  have haa : a'.1 = a.1 - t0 := by
    have e := congrArg List.head? hfirst
    rw [List.head?_map, List.head?_map, ha', ha] at e
    simpa using e
  have hbb : b'.1 = b.1 - t0 := by
    have e := congrArg List.getLast? hfirst
    rw [List.getLast?_map, List.getLast?_map, hb', hb] at e
    simpa using e
  have hPv : r.2.2 = b.1 - a.1 := by rw [hP, haa, hbb]; ring
  have hpos' : 0 < b.1 - a.1 := by rw [← hPv, hP]; exact hpos
  have hget : (Dict.get? (inp'.map fun p => (p.1, moved t0 (conv mags) p.2.rows)) f) = some (moved t0 (conv mags) lc.rows) := by
    rw [get?_map_pair (fun lc : LcInput => moved t0 (conv mags) lc.rows), hf]; rfl
  -- in the end the rows are moved by the first time
  have hend : r.1.get? f = some (moved a.1 (conv mags) lc.rows) ∧ r.2.1 = a.1 := by
    rcases hstart with hs | ⟨hs, hncl⟩
    · subst hs
      rcases hcase with ⟨_, e1, e2⟩ | ⟨hn, _⟩
      · exact ⟨by rw [e1]; exact hget, e2⟩
      · exfalso
        apply hn
        rw [haa, sub_self]
        unfold isClose
        norm_num
    · subst hs
      rcases hcase with ⟨hcl, _⟩ | ⟨_, _, e1, e2⟩
      · rw [haa, sub_zero] at hcl; exact absurd hcl hncl
      · rw [haa, sub_zero] at e1 e2
        refine ⟨?_, e2⟩
        rw [e1]
        unfold lcMove
        rw [get?_map_pair (fun l : List (ℝ × ℝ) => l.map fun r => (r.1 - a.1, r.2)), hget]
        simp [moved]
  have hlo' : d.minTimes.get? f = some 0 := by
    rw [hlo, hend.1]; simp [moved, ha]
  have hhi' : d.maxTimes.get? f = some (b.1 - a.1) := by
    rw [hhi, hend.1]; simp [moved, hb]
  refine ⟨by rw [hper, hPv], by rw [ht0, hend.2], times.map fun t => lcValue (moved a.1 (conv mags) lc.rows) (a.1 - a.1) (b.1 - a.1)
    ((d.baseline.get? f).getD 0) (pyMod t (b.1 - a.1)), ?_, by simp, ?_⟩
  · unfold lcEval
    rw [hc, hend.1, hlo', hhi']
    dsimp only
    rw [hper, hPv, sub_self]
    rfl
  · intro i t v ht hv
    rw [List.getElem?_map, ht] at hv
    simp only [Option.map_some, Option.some.injEq] at hv
    have hspec := lcValue_spec hinc a.1 (conv mags) ha hb ((d.baseline.get? f).getD 0) (pyMod t (b.1 - a.1))
    rw [hv] at hspec
    have hrange := pyMod_range t (b.1 - a.1) hpos'
    refine ⟨⌊t / (b.1 - a.1)⌋, pyMod t (b.1 - a.1) + a.1, by unfold pyMod; ring, by linarith, by linarith, hspec.2 ?_⟩
    rintro (⟨p, hp, hlt⟩ | ⟨p, hp, hlt⟩)
    · rw [ha] at hp; injection hp with hp; subst hp; linarith
    · rw [hb] at hp; injection hp with hp; subst hp; linarith

theorem check_spec {first : List (ℝ × ℝ)} {l : List (List (ℝ × ℝ))} (h : lcCheckAll first l = .ok ()) :
    ∀ lc ∈ l, (∀ (i : Nat) p q, lc[i]? = some p → first[i]? = some q → isClose p.1 q.1) ∧
      ∃ a b, lc.head? = some a ∧ lc.getLast? = some b ∧ isClose a.2 b.2 := by
  induction l with
  | nil => simp
  | cons lc l ih =>
    unfold lcCheckAll at h
    cases h1 : lcCheckOne first lc with
    | error e => rw [h1] at h; cases h
    | ok u =>
      rw [h1] at h
      intro lc' hm
      rcases List.mem_cons.1 hm with e | e
      · subst e
        unfold lcCheckOne at h1
        cases h2 : allCloseArr (lc'.map (·.1)) (first.map (·.1)) with
        | error e => rw [h2] at h1; cases h1
        | ok c =>
          rw [h2] at h1
          cases c with
          | false => cases h1
          | true =>
            dsimp only at h1
            constructor
            · intro i p q hp hq
              unfold allCloseArr at h2
              split at h2
              · injection h2 with h2
                have h2 := of_decide_eq_true h2
                refine h2 (p.1, q.1) (List.mem_iff_getElem?.2 ⟨i, ?_⟩)
                rw [List.getElem?_zip_eq_some]
                simp [hp, hq]
              split at h2
              · injection h2 with h2
                have h2 := of_decide_eq_true h2
                exact h2 p.1 (List.mem_map.2 ⟨p, List.mem_of_getElem? hp, rfl⟩) q.1 (List.mem_map.2 ⟨q, List.mem_of_getElem? hq, rfl⟩)
              split at h2
              · injection h2 with h2
                have h2 := of_decide_eq_true h2
                exact h2 p.1 (List.mem_map.2 ⟨p, List.mem_of_getElem? hp, rfl⟩) q.1 (List.mem_map.2 ⟨q, List.mem_of_getElem? hq, rfl⟩)
              · cases h2
            · cases ha : lc'.head? with
              | none => rw [ha] at h1; cases h1
              | some a =>
                cases hb : lc'.getLast? with
                | none => rw [ha, hb] at h1; cases h1
                | some b =>
                  rw [ha, hb] at h1
                  dsimp only at h1
                  split at h1
                  · rename_i hc; exact ⟨a, b, rfl, rfl, hc⟩
                  · cases h1
      · exact ih h lc' e

/-- **C49**: everything that does not conform is rejected. Data that is accepted has arrays of two or three columns with
strictly increasing times, at least one row in every filter, and a baseline for every filter if any are given. Periodic
data has at least one filter, and in each filter the first and the last flux agree to the tolerance of `np.isclose` and
the times (from the reference epoch) agree with those of the first filter to that tolerance. -/
theorem C49_accepted {inp : Dict Name LcInput} {t0 : ℝ} {periodic mags : Bool} {baseline : Option (Dict Name ℝ)} {d : LcData}
    (h : lcInit (.dict inp) t0 periodic mags baseline = .ok d) :
    (∀ p ∈ inp, (p.2.cols = 2 ∨ p.2.cols = 3) ∧ p.2.rows.Pairwise (fun a b => a.1 < b.1) ∧ p.2.rows ≠ []) ∧
    (∀ b, baseline = some b → ∀ p ∈ inp, (b.get? p.1).isSome = true) ∧
    (periodic = true → ∃ g first rest, inp = (g, first) :: rest ∧ 2 ≤ first.rows.length ∧ ∀ p ∈ inp,
      (∀ (i : Nat) x y, p.2.rows[i]? = some x → first.rows[i]? = some y → isClose (x.1 - t0) (y.1 - t0)) ∧
      ∃ a b, p.2.rows.head? = some a ∧ p.2.rows.getLast? = some b ∧ isClose (conv mags a.2) (conv mags b.2)) := by
  obtain ⟨inp', hsp, hall, h2⟩ := init_split h
  have : inp' = inp := by unfold lcSplit at hsp; injection hsp with hsp; exact hsp.symm
  subst this
  have hbase : ∀ (curves : Dict Name (List (ℝ × ℝ))) (bl : Dict Name ℝ), curves.keys = inp'.keys → lcBaseline curves baseline = .ok bl →
      ∀ b, baseline = some b → ∀ p ∈ inp', (b.get? p.1).isSome = true := by
    intro curves bl hk hbl b hb p hp
    rw [hb] at hbl
    unfold lcBaseline at hbl
    dsimp only at hbl
    split at hbl
    · rename_i hk'
      exact hk' p.1 (by rw [hk]; exact List.mem_map.2 ⟨p, hp, rfl⟩)
    · cases hbl
  have hkeys : Dict.keys (inp'.map fun p => (p.1, moved t0 (conv mags) p.2.rows)) = inp'.keys := by
    unfold Dict.keys; rw [List.map_map]; rfl
  rcases h2 with ⟨hx, hfin⟩ | ⟨hx, r, hr, hfin⟩
  · obtain ⟨hc, _, _, _, _, hne, bl, hbl, _⟩ := finish_spec hfin
    refine ⟨fun p hp => ⟨(hall p hp).1, (hall p hp).2, ?_⟩, hbase _ bl hkeys hbl, by intro e; rw [hx] at e; cases e⟩
    intro e
    have := hne (p.1, moved t0 (conv mags) p.2.rows) (List.mem_map.2 ⟨p, hp, rfl⟩)
    dsimp only at this
    rw [e] at this
    exact this rfl
  · obtain ⟨g, first, rest, a, b, hcur, hlen, hchk, ha, hb, hpos, hP, hcase⟩ := periodic_spec hr
    obtain ⟨hc, _, _, _, _, hne, bl, hbl, _⟩ := finish_spec hfin
    have hck := check_spec hchk
    have hrk : r.1.keys = inp'.keys := by
      rcases hcase with ⟨_, e, _⟩ | ⟨_, _, e, _⟩
      · rw [e, hkeys]
      · rw [e, ← hkeys]; unfold lcMove Dict.keys; rw [List.map_map]; rfl
    have hval : ∀ p ∈ inp', moved t0 (conv mags) p.2.rows ∈ Dict.values (inp'.map fun p => (p.1, moved t0 (conv mags) p.2.rows)) := by
      intro p hp
      unfold Dict.values
      rw [List.map_map]
      exact List.mem_map.2 ⟨p, hp, rfl⟩
    refine ⟨fun p hp => ⟨(hall p hp).1, (hall p hp).2, ?_⟩, hbase _ bl hrk hbl, fun _ => ?_⟩
    · intro e
      obtain ⟨_, a, b, h1, _⟩ := hck _ (hval p hp)
      rw [e] at h1
      cases h1
    · cases inp' with
      | nil => cases hcur
      | cons q l =>
        obtain ⟨g', first'⟩ := q
        rw [List.map_cons] at hcur
        injection hcur with e1 e2
        injection e1 with e3 e4
        dsimp only at e4
        refine ⟨g', first', l, rfl, ?_, ?_⟩
        · rw [← e4] at hlen; simpa [moved] using hlen
        · intro p hp
          obtain ⟨h1, x, y, hx, hy, hcl⟩ := hck _ (hval p hp)
          constructor
          · intro i x y hx hy
            have := h1 i (x.1 - t0, conv mags x.2) (y.1 - t0, conv mags y.2) (by simp [moved, hx]) (by rw [← e4]; simp [moved, hy])
            exact this
          · unfold moved at hx hy
            rw [List.head?_map] at hx
            rw [List.getLast?_map] at hy
            cases hxa : p.2.rows.head? with
            | none => rw [hxa] at hx; cases hx
            | some xa =>
              cases hyb : p.2.rows.getLast? with
              | none => rw [hyb] at hy; cases hy
              | some yb =>
                rw [hxa] at hx
                rw [hyb] at hy
                simp only [Option.map_some, Option.some.injEq] at hx hy
                subst hx; subst hy
                exact ⟨xa, yb, rfl, rfl, hcl⟩

/-! ## Examples -/

/-- A curve of two rows. -/
def two (t1 v1 t2 v2 : ℝ) : LcInput := ⟨2, [(t1, v1), (t2, v2)]⟩

theorem two_shift {t1 t2 : ℝ} (h : t1 < t2) (v1 v2 t0 : ℝ) (mags : Bool) :
    lcShiftOne t0 mags (two t1 v1 t2 v2) = .ok [(t1 - t0, conv mags v1), (t2 - t0, conv mags v2)] := by
  unfold lcShiftOne two
  rw [if_neg (by simp), if_neg]
  · rfl
  · simp [npDiff, h]

def gName : Name := "g".toList
def rName : Name := "r".toList

/-- **C49**: magnitudes without a baseline: outside of the rows the flux is the flux of magnitude 0, not 0. -/
theorem C49_magnitude_baseline_counterexample :
    ∃ d, lcInit (.dict [(gName, two 0 20 1 20)]) 0 false true none = .ok d ∧
      lcEval d [2] gName = .ok [mag2flux 0] ∧ 0 < mag2flux 0 := by
  have hs : lcShiftAll 0 true [(gName, two 0 20 1 20)] = .ok [(gName, [((0 : ℝ) - 0, conv true 20), (1 - 0, conv true 20)])] := by
    unfold lcShiftAll
    rw [two_shift (by norm_num)]
    rfl
  refine ⟨⟨[(gName, [(0 - 0, conv true 20), (1 - 0, conv true 20)])], 0, none, [(gName, 0 - 0)], [(gName, 1 - 0)], [(gName, mag2flux 0)]⟩, ?_, ?_, ?_⟩
  · unfold lcInit
    have : lcSplit (.dict [(gName, two 0 20 1 20)]) = .ok [(gName, two 0 20 1 20)] := rfl
    rw [this]
    dsimp only
    rw [hs]
    rfl
  · unfold lcEval
    have h1 : Dict.get? [(gName, [((0 : ℝ) - 0, conv true 20), (1 - 0, conv true 20)])] gName = some [((0 : ℝ) - 0, conv true 20), (1 - 0, conv true 20)] := by
      rw [Dict.get?_cons, if_pos rfl]
    have h2 : Dict.get? [(gName, (0 : ℝ) - 0)] gName = some (0 - 0) := by rw [Dict.get?_cons, if_pos rfl]
    have h3 : Dict.get? [(gName, (1 : ℝ) - 0)] gName = some (1 - 0) := by rw [Dict.get?_cons, if_pos rfl]
    have h4 : Dict.get? [(gName, mag2flux 0)] gName = some (mag2flux 0) := by rw [Dict.get?_cons, if_pos rfl]
    dsimp only
    rw [h1, h2, h3, h4]
    simp only [List.map_cons, List.map_nil, lcWrap, Option.getD_some]
    unfold lcValue
    rw [if_neg (by rintro ⟨_, h⟩; norm_num at h)]
  · unfold mag2flux
    exact Real.rpow_pos_of_pos (by norm_num) _

/-- The two curves after the shift: the second one starts half a day late. -/
noncomputable def late : LcData :=
  ⟨[(gName, [(0, 5), (1, 5)]), (rName, [(1 / 2, 5), (3 / 2, 5)])], 60000, some 1, [(gName, 0), (rName, 1 / 2)], [(gName, 1), (rName, 3 / 2)],
    [(gName, 0), (rName, 0)]⟩

/-- **C49**: periodic curves that are not sampled at the same times are accepted, because the comparison of times is relative
to their size: at a date of 60000 days half a day is within the tolerance. Both curves have the constant flux 5, but
during the first half of the period the flux in `r` is 0. -/
theorem C49_times_counterexample :
    lcInit (.dict [(gName, two 60000 5 60001 5), (rName, two 60000.5 5 60001.5 5)]) 0 true false none = .ok late ∧
      lcEval late [1 / 4] rName = .ok [0] := by
  have hs : lcShiftAll 0 false [(gName, two 60000 5 60001 5), (rName, two 60000.5 5 60001.5 5)] =
      .ok [(gName, [((60000 : ℝ) - 0, 5), (60001 - 0, 5)]), (rName, [((60000.5 : ℝ) - 0, 5), (60001.5 - 0, 5)])] := by
    unfold lcShiftAll
    rw [two_shift (by norm_num)]
    dsimp only
    unfold lcShiftAll
    rw [two_shift (by norm_num)]
    rfl
  have hc : ∀ a b c d : ℝ, |a - c| ≤ 0.6 → |b - d| ≤ 0.6 → 60000 ≤ c → 60000 ≤ d → lcCheckOne [(c, 5), (d, 5)] [(a, 5), (b, 5)] = .ok () := by
    intro a b c d h1 h2 h3 h4
    have : allCloseArr ([(a, (5 : ℝ)), (b, 5)].map (·.1)) ([(c, (5 : ℝ)), (d, 5)].map (·.1)) = .ok true := by
      unfold allCloseArr
      rw [if_pos (show (List.map (·.1) [(a, (5 : ℝ)), (b, 5)]).length = (List.map (·.1) [(c, (5 : ℝ)), (d, 5)]).length from rfl)]
      congr 1
      apply decide_eq_true
      intro p hp
      simp only [List.map_cons, List.map_nil, List.zip_cons_cons, List.zip_nil_right, List.mem_cons, List.not_mem_nil, or_false] at hp
      unfold isClose
      rcases hp with e | e
      · subst e
        dsimp only
        rw [abs_of_nonneg (show (0 : ℝ) ≤ c by linarith)]
        refine le_trans h1 ?_
        norm_num
        linarith
      · subst e
        dsimp only
        rw [abs_of_nonneg (show (0 : ℝ) ≤ d by linarith)]
        refine le_trans h2 ?_
        norm_num
        linarith
    unfold lcCheckOne
    rw [this]
    simp only [List.head?_cons, List.getLast?_cons_cons, List.getLast?_singleton]
    rw [if_pos]
    unfold isClose
    norm_num
  have hp : lcPeriodic [(gName, [((60000 : ℝ) - 0, 5), (60001 - 0, 5)]), (rName, [((60000.5 : ℝ) - 0, 5), (60001.5 - 0, 5)])] 0 =
      .ok (lcMove (60000 - 0) [(gName, [((60000 : ℝ) - 0, 5), (60001 - 0, 5)]), (rName, [((60000.5 : ℝ) - 0, 5), (60001.5 - 0, 5)])], 60000 - 0, (60001 - 0) - (60000 - 0)) := by
    unfold lcPeriodic
    dsimp only
    rw [if_neg (by simp)]
    have : lcCheckAll [((60000 : ℝ) - 0, 5), (60001 - 0, 5)]
        (Dict.values [(gName, [((60000 : ℝ) - 0, 5), (60001 - 0, 5)]), (rName, [((60000.5 : ℝ) - 0, 5), (60001.5 - 0, 5)])]) = .ok () := by
      unfold Dict.values
      simp only [List.map_cons, List.map_nil]
      unfold lcCheckAll
      rw [hc _ _ _ _ (by norm_num) (by norm_num) (by norm_num) (by norm_num)]
      dsimp only
      unfold lcCheckAll
      rw [hc _ _ _ _ (by norm_num [abs_le]) (by norm_num [abs_le]) (by norm_num) (by norm_num)]
      rfl
    rw [this]
    simp only [List.head?_cons, List.getLast?_cons_cons, List.getLast?_singleton]
    rw [if_neg (by norm_num), if_neg, if_neg (by simp)]
    unfold isClose
    norm_num
  constructor
  · unfold lcInit
    have : lcSplit (.dict [(gName, two 60000 5 60001 5), (rName, two 60000.5 5 60001.5 5)]) = .ok [(gName, two 60000 5 60001 5), (rName, two 60000.5 5 60001.5 5)] := rfl
    rw [this]
    dsimp only
    rw [hs]
    dsimp only
    rw [if_pos rfl, hp]
    have hm : lcMove (60000 - 0) [(gName, [((60000 : ℝ) - 0, 5), (60001 - 0, 5)]), (rName, [((60000.5 : ℝ) - 0, 5), (60001.5 - 0, 5)])] =
        [(gName, [(0, 5), (1, 5)]), (rName, [(1 / 2, 5), (3 / 2, 5)])] := by
      unfold lcMove
      norm_num
    dsimp only
    rw [hm]
    have e1 : (60000 : ℝ) - 0 = 60000 := by norm_num
    have e2 : ((60001 : ℝ) - 0) - (60000 - 0) = 1 := by norm_num
    rw [e2, e1]
    rfl
  · unfold lcEval late
    have hn : gName ≠ rName := by decide
    have h1 : Dict.get? [(gName, [((0 : ℝ), (5 : ℝ)), (1, 5)]), (rName, [(1 / 2, 5), (3 / 2, 5)])] rName = some [(1 / 2, 5), (3 / 2, 5)] := by
      rw [Dict.get?_cons, if_neg hn, Dict.get?_cons, if_pos rfl]
    have h2 : Dict.get? [(gName, (0 : ℝ)), (rName, 1 / 2)] rName = some (1 / 2) := by
      rw [Dict.get?_cons, if_neg hn, Dict.get?_cons, if_pos rfl]
    have h3 : Dict.get? [(gName, (1 : ℝ)), (rName, 3 / 2)] rName = some (3 / 2) := by
      rw [Dict.get?_cons, if_neg hn, Dict.get?_cons, if_pos rfl]
    have h4 : Dict.get? [(gName, (0 : ℝ)), (rName, 0)] rName = some 0 := by
      rw [Dict.get?_cons, if_neg hn, Dict.get?_cons, if_pos rfl]
    dsimp only
    rw [h1, h2, h3, h4]
    have hmod : pyMod (1 / 4) 1 = 1 / 4 := by
      unfold pyMod
      have : ⌊(1 / 4 : ℝ) / 1⌋ = 0 := by rw [Int.floor_eq_iff]; norm_num
      rw [this]
      norm_num
    simp only [List.map_cons, List.map_nil, lcWrap, Option.getD_some, hmod]
    unfold lcValue
    rw [if_neg (by rintro ⟨h, _⟩; norm_num at h)]

/-- The hypotheses of `C49_nonperiodic_partial` are met. -/
example : ∃ d, lcInit (.dict [(gName, two 10 1 20 3)]) 10 false false (some [(gName, 7)]) = .ok d ∧
    ∃ vals, lcEval d [-1, 5] gName = .ok vals ∧ vals = [7, 2] := by
  have hs : lcShiftAll 10 false [(gName, two 10 1 20 3)] = .ok [(gName, [((10 : ℝ) - 10, conv false 1), (20 - 10, conv false 3)])] := by
    unfold lcShiftAll
    rw [two_shift (by norm_num)]
    rfl
  have hinit : ∃ d, lcInit (.dict [(gName, two 10 1 20 3)]) 10 false false (some [(gName, 7)]) = .ok d := by
    refine ⟨⟨[(gName, [((10 : ℝ) - 10, conv false 1), (20 - 10, conv false 3)])], 10, none, [(gName, 10 - 10)], [(gName, 20 - 10)], [(gName, 7)]⟩, ?_⟩
    unfold lcInit
    have : lcSplit (.dict [(gName, two 10 1 20 3)]) = .ok [(gName, two 10 1 20 3)] := rfl
    rw [this]
    dsimp only
    rw [hs]
    rfl
  obtain ⟨d, hd⟩ := hinit
  refine ⟨d, hd, ?_⟩
  obtain ⟨vals, hv, hlen, hall⟩ := C49_nonperiodic_partial hd (f := gName) (rows := [(10, 1), (20, 3)]) ⟨two 10 1 20 3, by rw [Dict.get?_cons, if_pos rfl], rfl⟩
    (by simp) [-1, 5]
  refine ⟨vals, hv, ?_⟩
  match vals, hlen, hall with
  | [x, y], _, hall =>
    have hx := (hall 0 (-1) x rfl rfl).1 (Or.inl ⟨(10, 1), rfl, by norm_num⟩)
    have hy := (hall 1 5 y rfl rfl).2 (by
      rintro (⟨p, hp, h⟩ | ⟨p, hp, h⟩)
      · simp at hp; subst hp; norm_num at h
      · simp at hp; subst hp; norm_num at h)
    have e1 : x = 7 := by rw [hx]; unfold baseFlux; dsimp only; rw [Dict.get?_cons, if_pos rfl]; rfl
    have e2 : y = 2 := by
      rcases hy with ⟨i, p, q, hp, hq, _, _, e⟩ | ⟨p, hp, _⟩
      · have hi : i = 0 := by
          have := (List.getElem?_eq_some_iff.1 hq).1
          simp at this
          exact this
        subst hi
        simp at hp hq
        subst hp; subst hq
        rw [e]
        unfold conv
        norm_num
      · simp at hp
    rw [e1, e2]

/-- **C49**: with magnitudes the caller's dictionary is converted in place, so that the next template made with it has
another baseline: two equal constructions in a row give different templates. -/
theorem C49_baseline_reuse_counterexample :
    ∃ d1 d2, lcInit (.dict [(gName, two 0 20 1 20)]) 0 false true (some [(gName, magAbZp)]) = .ok d1 ∧
      lcInit (.dict [(gName, two 0 20 1 20)]) 0 false true (some (lcCallerBaseline true [(gName, magAbZp)])) = .ok d2 ∧
      d1.baseline.get? gName = some 1 ∧ d2.baseline.get? gName ≠ some 1 := by
  have hs : lcShiftAll 0 true [(gName, two 0 20 1 20)] = .ok [(gName, [((0 : ℝ) - 0, conv true 20), (1 - 0, conv true 20)])] := by
    unfold lcShiftAll
    rw [two_shift (by norm_num)]
    rfl
  have hz : mag2flux magAbZp = 1 := by unfold mag2flux; norm_num
  have hrun : ∀ x : ℝ, lcInit (.dict [(gName, two 0 20 1 20)]) 0 false true (some [(gName, x)]) =
      .ok ⟨[(gName, [(0 - 0, conv true 20), (1 - 0, conv true 20)])], 0, none, [(gName, 0 - 0)], [(gName, 1 - 0)], [(gName, mag2flux x)]⟩ := by
    intro x
    unfold lcInit
    have : lcSplit (.dict [(gName, two 0 20 1 20)]) = .ok [(gName, two 0 20 1 20)] := rfl
    rw [this]
    dsimp only
    rw [hs]
    rfl
  have hcb : lcCallerBaseline true [(gName, magAbZp)] = [(gName, 1)] := by
    unfold lcCallerBaseline lcConvert
    rw [if_pos rfl]
    simp only [List.map_cons, List.map_nil, hz]
  refine ⟨_, _, hrun _, by rw [hcb]; exact hrun _, ?_, ?_⟩
  · dsimp only
    rw [Dict.get?_cons, if_pos rfl, hz]
  · dsimp only
    rw [Dict.get?_cons, if_pos rfl]
    intro e
    injection e with e
    unfold mag2flux at e
    have h1 : (1 : ℝ) < 10 ^ (-0.4 * (1 - magAbZp)) := by
      apply Real.one_lt_rpow (by norm_num)
      unfold magAbZp
      norm_num
    rw [e] at h1
    exact lt_irrefl _ h1

end LCL.TemplateProps
