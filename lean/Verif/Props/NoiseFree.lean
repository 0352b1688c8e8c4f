import Verif.Spec.NoiseFree
import Verif.Props.Simulate

/-!
# Property C54: noise-free lightcurves
-/

namespace LCL.NoiseFreeProps
open LCL LCL.NFSpec LCL.SimulateProps

theorem arange_grid {lo hi step : ℝ} {l : List ℝ} (h : arange lo hi step = .ok l) : IsGrid lo hi step l := by
  unfold arange at h
  split at h
  · cases h
  rename_i h0
  cases h
  have key : ∀ i : Nat, i < ⌈(hi - lo) / step⌉.toNat ↔ (i : ℝ) < (hi - lo) / step := by
    intro i
    rw [Int.lt_toNat, Int.lt_ceil]
    norm_cast
  refine ⟨?_, ?_, ?_⟩
  · intro i x hx
    rw [List.getElem?_map] at hx
    cases hr : (List.range ⌈(hi - lo) / step⌉.toNat)[i]? with
    | none => rw [hr] at hx; cases hx
    | some j =>
      rw [hr] at hx
      obtain ⟨_, hj⟩ := List.getElem?_eq_some_iff.1 hr
      rw [List.getElem_range] at hj
      subst hj
      simp only [Option.map_some, Option.some.injEq] at hx
      exact hx.symm
  · intro hs i
    rw [List.length_map, List.length_range, key, lt_div_iff₀ hs]
    constructor <;> intro h <;> linarith
  · intro hs i
    rw [List.length_map, List.length_range, key, lt_div_iff_of_neg hs]
    constructor <;> intro h <;> linarith

open Classical in
theorem stretch_eq (z : Option ℝ) (phases : List ℝ) :
    stretchTimes z phases = phases.map fun p => match z with
      | some z => if 0 < z then p * (1 + z) else p
      | none => p := by
  unfold stretchTimes stretched
  cases z with
  | none => simp
  | some z =>
    by_cases hz : 0 < z
    · simp [hz]
    · simp [hz]

theorem times_eq {s : NFState} {phases times : List ℝ} {b : Bool}
    (h : shiftTimes s.t0 b s.t0Int (stretchTimes s.z phases) = .ok times) : times = phases.map (obsTime s) := by
  unfold shiftTimes at h
  rw [stretch_eq] at h
  cases ht : s.t0 with
  | none =>
    rw [ht] at h
    simp only [Except.ok.injEq] at h
    rw [← h]
    apply List.map_congr_left
    intro p _
    unfold obsTime
    rw [ht]
    simp only [Option.getD_none, add_zero]
    rfl
  | some t =>
    rw [ht] at h
    simp only at h
    split at h
    · cases h
    · simp only [Except.ok.injEq, List.map_map] at h
      rw [← h]
      apply List.map_congr_left
      intro p _
      unfold obsTime
      rw [ht]
      rfl

theorem evalFilters_spec {eval : List ℝ → List Name → SState ℝ → Except Err (List ℝ)} {times : List ℝ} {st : SState ℝ}
    {filters : List Name} {d d' : Dict Name (List ℝ)} (h : evalFilters eval times st filters d = .ok d') :
    (∀ c, c ∉ filters → d'.get? c = d.get? c) ∧
    ∀ c ∈ filters, ∃ fl, eval times (List.replicate times.length c) st = .ok fl ∧ d'.get? c = some fl := by
  induction filters generalizing d with
  | nil => cases h; exact ⟨fun _ _ => rfl, by simp⟩
  | cons f fs ih =>
    simp only [evalFilters] at h
    cases he : eval times (List.replicate times.length f) st with
    | error e => rw [he] at h; cases h
    | ok fl =>
      rw [he] at h
      obtain ⟨a, b⟩ := ih h
      refine ⟨?_, ?_⟩
      · intro c hc
        rw [List.mem_cons, not_or] at hc
        rw [a c hc.2, Dict.get?_set, if_neg (fun e => hc.1 e.symm)]
      · intro c hc
        by_cases hcf : c ∈ fs
        · exact b c hcf
        · rcases List.mem_cons.1 hc with rfl | hc
          · exact ⟨fl, he, by rw [a c hcf, Dict.get?_set, if_pos rfl]⟩
          · exact absurd hc hcf

theorem evalFilters_ok {eval : List ℝ → List Name → SState ℝ → Except Err (List ℝ)} {times : List ℝ} {st : SState ℝ}
    (filters : List Name) (he : ∀ f ∈ filters, ∃ fl, eval times (List.replicate times.length f) st = .ok fl) :
    ∀ d, ∃ d', evalFilters eval times st filters d = .ok d' := by
  induction filters with
  | nil => intro d; exact ⟨d, rfl⟩
  | cons f fs ih =>
    intro d
    obtain ⟨fl, hfl⟩ := he f (by simp)
    obtain ⟨d', hd'⟩ := ih (fun f hf => he f (List.mem_cons_of_mem _ hf)) (d.set f fl)
    exact ⟨d', by simp only [evalFilters, hfl, hd']⟩

theorem mem_nfKeys (filters : List Name) (c : Name) :
    c ∈ nfKeys filters ↔ c = "times".toList ∨ c = "rest_phase".toList ∨ c ∈ filters := by
  have : ∀ (l : List Name) (d : Dict Name (List NCell)),
      c ∈ (l.foldl (fun (d : Dict Name (List NCell)) f => d.set f []) d).keys ↔ c ∈ d.keys ∨ c ∈ l := by
    intro l
    induction l with
    | nil => intro d; simp
    | cons x l ih =>
      intro d
      rw [List.foldl_cons, ih, Dict.mem_keys_set, List.mem_cons]
      tauto
  unfold nfKeys
  rw [this]
  simp only [Dict.keys, List.map_cons, List.map_nil, List.mem_cons, List.not_mem_nil, or_false]
  tauto

theorem nfKeys_nodup (filters : List Name) : (nfKeys filters).Nodup := by
  have : ∀ (l : List Name) (d : Dict Name (List NCell)), d.keys.Nodup →
      (l.foldl (fun (d : Dict Name (List NCell)) f => d.set f []) d).keys.Nodup := by
    intro l
    induction l with
    | nil => intro d h; exact h
    | cons x l ih => intro d h; exact ih _ (Dict.nodup_set h _ _)
  exact this filters _ (by decide)

theorem extendAll_spec {lc : Dict Name (List ℝ)} {keys : List Name} {d d' : Dict Name (List NCell)} (hn : keys.Nodup)
    (h : extendAll lc keys d = .ok d') :
    (∀ c, c ∉ keys → getc d' c = getc d c) ∧
    ∀ c ∈ keys, ∃ l, lc.get? c = some l ∧ getc d' c = getc d c ++ l.map .num := by
  induction keys generalizing d with
  | nil => cases h; exact ⟨fun _ _ => rfl, by simp⟩
  | cons k ks ih =>
    rw [List.nodup_cons] at hn
    simp only [extendAll] at h
    cases hk : lc.get? k with
    | none => rw [hk] at h; cases h
    | some l =>
      rw [hk] at h
      obtain ⟨a, b⟩ := ih hn.2 h
      refine ⟨?_, ?_⟩
      · intro c hc
        rw [List.mem_cons, not_or] at hc
        rw [a c hc.2, getc_extend, if_neg hc.1, List.append_nil]
      · intro c hc
        rcases List.mem_cons.1 hc with rfl | hcs
        · exact ⟨l, hk, by rw [a c hn.1, getc_extend, if_pos rfl]⟩
        · obtain ⟨l', e1, e2⟩ := b c hcs
          refine ⟨l', e1, ?_⟩
          have : c ≠ k := by intro e; rw [e] at hcs; exact hn.1 hcs
          rw [e2, getc_extend, if_neg this, List.append_nil]

/-- The number of times of one lightcurve. -/
def nfLen (lc : Dict Name (List ℝ)) : Nat := ((lc.get? "times".toList).getD []).length

/-- A column of one lightcurve. -/
def nfCol (c : Name) (lc : Dict Name (List ℝ)) : List NCell := ((lc.get? c).getD []).map .num

theorem loop_spec {eval : List ℝ → List Name → SState ℝ → Except Err (List ℝ)} {filters : List Name} {ph : Phases}
    (ss : List NFState) : ∀ (idx : Nat) (nd nd' : Nested), noiseFreeLoop eval filters ph idx ss nd = .ok nd' →
    ∃ lcs : List (Dict Name (List ℝ)), lcs.length = ss.length ∧
      (∀ (k : Nat) (s : NFState) lc, ss[k]? = some s → lcs[k]? = some lc → noiseFreeOne eval filters ph (idx + k) s = .ok lc) ∧
      nd'.index = nd.index ++ (lcs.zipIdx idx).flatMap (fun q => List.replicate (nfLen q.1) q.2) ∧
      ∀ c ∈ nfKeys filters, getc nd'.cols c = getc nd.cols c ++ lcs.flatMap (nfCol c) := by
  induction ss with
  | nil => intro idx nd nd' h; cases h; exact ⟨[], rfl, by simp, by simp, by simp⟩
  | cons s ss ih =>
    intro idx nd nd' h
    simp only [noiseFreeLoop] at h
    cases h1 : noiseFreeOne eval filters ph idx s with
    | error e => rw [h1] at h; cases h
    | ok lc =>
      rw [h1] at h
      simp only at h
      cases h2 : extendAll lc (nfKeys filters) nd.cols with
      | error e => rw [h2] at h; cases h
      | ok cols =>
        rw [h2] at h
        simp only at h
        obtain ⟨lcs, a1, a2, a3, a4⟩ := ih _ _ _ h
        obtain ⟨-, b2⟩ := extendAll_spec (nfKeys_nodup filters) h2
        refine ⟨lc :: lcs, by simp [a1], ?_, ?_, ?_⟩
        · intro k s' lc' hs hlc
          cases k with
          | zero => simp at hs hlc; subst hs hlc; exact h1
          | succ k =>
            simp only [List.getElem?_cons_succ] at hs hlc
            have := a2 k s' lc' hs hlc
            rwa [show idx + 1 + k = idx + (k + 1) by omega] at this
        · rw [a3]
          simp only [List.zipIdx_cons, List.flatMap_cons, List.append_assoc, nfLen]
        · intro c hc
          obtain ⟨l, e1, e2⟩ := b2 c hc
          rw [a4 c hc, e2]
          simp only [List.flatMap_cons, nfCol, e1, Option.getD_some, List.append_assoc]

theorem phaseAt_iff (a : PhaseArg) (k : Nat) (x : ℝ) : a.at k = .ok x ↔ phaseAt a k = some x := by
  cases a with
  | scalar y => simp [PhaseArg.at, phaseAt]
  | arr l =>
    simp only [PhaseArg.at, phaseAt]
    cases l[k]? <;> simp

/-- What one sample's lightcurve holds. -/
theorem one_spec {eval : List ℝ → List Name → SState ℝ → Except Err (List ℝ)} {filters : List Name} {ph : Phases}
    (hf : "times".toList ∉ filters ∧ "rest_phase".toList ∉ filters)
    {k : Nat} {s : NFState} {lc : Dict Name (List ℝ)} (h : noiseFreeOne eval filters ph k s = .ok lc) :
    ∃ lo hi step phases, phaseAt ph.lo k = some lo ∧ phaseAt ph.hi k = some hi ∧ phaseAt ph.step k = some step ∧
      IsGrid lo hi step phases ∧ lc.get? "rest_phase".toList = some phases ∧
      lc.get? "times".toList = some (phases.map (obsTime s)) ∧
      ∀ f ∈ filters, ∃ fl, eval (phases.map (obsTime s)) (List.replicate phases.length f) s.state = .ok fl ∧
        lc.get? f = some fl := by
  unfold noiseFreeOne at h
  cases h1 : ph.lo.at k with
  | error e => rw [h1] at h; cases h
  | ok lo =>
    rw [h1] at h; simp only at h
    cases h2 : ph.hi.at k with
    | error e => rw [h2] at h; cases h
    | ok hi =>
      rw [h2] at h; simp only at h
      cases h3 : ph.step.at k with
      | error e => rw [h3] at h; cases h
      | ok step =>
        rw [h3] at h; simp only [singleNoiseFree] at h
        cases h4 : arange lo hi step with
        | error e => rw [h4] at h; cases h
        | ok phases =>
          rw [h4] at h; simp only at h
          cases h5 : shiftTimes s.t0 (ph.isInt && !stretched s.z) s.t0Int (stretchTimes s.z phases) with
          | error e => rw [h5] at h; cases h
          | ok times =>
            rw [h5] at h; simp only at h
            have ht := times_eq h5
            subst ht
            obtain ⟨a, b⟩ := evalFilters_spec h
            refine ⟨lo, hi, step, phases, (phaseAt_iff _ _ _).1 h1, (phaseAt_iff _ _ _).1 h2, (phaseAt_iff _ _ _).1 h3,
              arange_grid h4, ?_, ?_, ?_⟩
            · rw [a _ hf.2]; rfl
            · rw [a _ hf.1]; rfl
            · intro f hf'
              obtain ⟨fl, e1, e2⟩ := b f hf'
              rw [List.length_map] at e1
              exact ⟨fl, e1, e2⟩

theorem col_length {eval : List ℝ → List Name → SState ℝ → Except Err (List ℝ)} {filters : List Name} {ph : Phases}
    (he : OnePerTime eval) (hf : "times".toList ∉ filters ∧ "rest_phase".toList ∉ filters)
    {k : Nat} {s : NFState} {lc : Dict Name (List ℝ)} (h : noiseFreeOne eval filters ph k s = .ok lc)
    {c : Name} (hc : c ∈ nfKeys filters) : (nfCol c lc).length = nfLen lc := by
  obtain ⟨lo, hh, st, phases, -, -, -, -, g2, g3, g4⟩ := one_spec hf h
  unfold nfCol nfLen
  rw [g3]
  rcases (mem_nfKeys filters c).1 hc with rfl | rfl | hc
  · rw [g3]; simp
  · rw [g2]; simp
  · obtain ⟨fl, e1, e2⟩ := g4 c hc
    rw [e2]
    have := he _ _ _ _ e1
    simp [this]

theorem extendAll_keys {lc : Dict Name (List ℝ)} {keys all : List Name} {d d' : Dict Name (List NCell)}
    (h : extendAll lc keys d = .ok d') (hk : ∀ k ∈ keys, k ∈ all) (h1 : d.keys.Nodup) (h2 : ∀ c ∈ d.keys, c ∈ all) :
    d'.keys.Nodup ∧ ∀ c ∈ d'.keys, c ∈ all := by
  induction keys generalizing d with
  | nil => cases h; exact ⟨h1, h2⟩
  | cons k ks ih =>
    simp only [extendAll] at h
    cases hg : lc.get? k with
    | none => rw [hg] at h; cases h
    | some l =>
      rw [hg] at h
      refine ih h (fun x hx => hk x (List.mem_cons_of_mem _ hx)) (Dict.nodup_set h1 _ _) ?_
      intro c hc
      unfold extend at hc
      rw [Dict.mem_keys_set] at hc
      rcases hc with hc | hc
      · first | exact h2 c hc | (subst hc; exact hk _ (by simp))
      · first | exact h2 c hc | (subst hc; exact hk _ (by simp))

theorem loop_keys {eval : List ℝ → List Name → SState ℝ → Except Err (List ℝ)} {filters : List Name} {ph : Phases}
    (ss : List NFState) : ∀ (idx : Nat) (nd nd' : Nested), noiseFreeLoop eval filters ph idx ss nd = .ok nd' →
    nd.cols.keys.Nodup → (∀ c ∈ nd.cols.keys, c ∈ nfKeys filters) →
    nd'.cols.keys.Nodup ∧ ∀ c ∈ nd'.cols.keys, c ∈ nfKeys filters := by
  induction ss with
  | nil => intro idx nd nd' h a b; cases h; exact ⟨a, b⟩
  | cons s ss ih =>
    intro idx nd nd' h a b
    simp only [noiseFreeLoop] at h
    cases h1 : noiseFreeOne eval filters ph idx s with
    | error e => rw [h1] at h; cases h
    | ok lc =>
      rw [h1] at h
      simp only at h
      cases h2 : extendAll lc (nfKeys filters) nd.cols with
      | error e => rw [h2] at h; cases h
      | ok cols =>
        rw [h2] at h
        obtain ⟨c1, c2⟩ := extendAll_keys h2 (fun _ h => h) a b
        exact ih _ _ _ h c1 c2

/-- C54. If compute_noise_free_lightcurves succeeds (no passband being called "times" or "rest_phase"), there is one
row per sample with its position, and the lightcurve of every sample is evaluated on the grid of its own
phases, at the observer-frame times: every filter's column is exactly the model evaluated for that sample in
that filter at these times. -/
theorem C54_lightcurves_partial {eval : List ℝ → List Name → SState ℝ → Except Err (List ℝ)} {filters : List Name}
    {ph : Phases} {states : List NFState} {res : SimResult} (he : OnePerTime eval)
    (hf : "times".toList ∉ filters ∧ "rest_phase".toList ∉ filters)
    (h : computeNoiseFree eval filters ph states = .ok res) :
    res.ids = List.range states.length ∧ res.ra = states.map (·.ra) ∧ res.dec = states.map (·.dec) ∧
    ∀ (k : Nat) (s : NFState), states[k]? = some s → IsLightcurve eval filters ph k s (lightcurve res.nested k) := by
  unfold computeNoiseFree at h
  cases hl : noiseFreeLoop eval filters ph 0 states { cols := [], index := [] } with
  | error e => rw [hl] at h; cases h
  | ok nd =>
    rw [hl] at h; simp only at h
    cases hck : checkNested nd with
    | error e => rw [hck] at h; cases h
    | ok nd' =>
      rw [hck] at h
      simp only [Except.ok.injEq] at h
      subst h
      have hnn : nd' = nd := by
        unfold checkNested at hck
        split at hck
        · cases hck; rfl
        · cases hck
      subst hnn
      obtain ⟨lcs, a1, a2, a3, a4⟩ := loop_spec states 0 _ _ hl
      refine ⟨rfl, rfl, rfl, ?_⟩
      intro k s hk
      have hkl : k < lcs.length := by
        have := (List.getElem?_eq_some_iff.1 hk).1; omega
      have hlk := List.getElem?_eq_getElem hkl
      have hone := a2 k s _ hk hlk
      rw [Nat.zero_add] at hone
      have hlen : ∀ c ∈ nfKeys filters, ∀ lc ∈ lcs, (nfCol c lc).length = nfLen lc := by
        intro c hc lc hlc
        obtain ⟨i, hi⟩ := List.mem_iff_getElem?.1 hlc
        have hi' : i < states.length := by
          have := (List.getElem?_eq_some_iff.1 hi).1; omega
        exact col_length he hf (a2 i _ lc (List.getElem?_eq_getElem hi') hi) hc
      have hcol : ∀ c ∈ nfKeys filters, lightcurve nd' k c = nfCol c lcs[k] := by
        intro c hc
        have g := group nfLen lcs (nfCol c) (hlen c hc) 0 k
        rw [Nat.zero_add, hlk] at g
        unfold lightcurve
        have h4 := a4 c hc
        unfold getc at h4
        rw [h4, a3]
        exact g
      obtain ⟨lo, hh, st, phases, g1, g2, g3, g4, g5, g6, g7⟩ := one_spec hf hone
      refine ⟨lo, hh, st, phases, g1, g2, g3, g4, ?_, ?_, ?_⟩
      · rw [hcol _ ((mem_nfKeys _ _).2 (Or.inr (Or.inl rfl)))]
        unfold nfCol; rw [g5]; rfl
      · rw [hcol _ ((mem_nfKeys _ _).2 (Or.inl rfl))]
        unfold nfCol; rw [g6]; simp
      · intro f hf'
        obtain ⟨fl, e1, e2⟩ := g7 f hf'
        refine ⟨fl, e1, ?_⟩
        rw [hcol _ ((mem_nfKeys _ _).2 (Or.inr (Or.inr hf')))]
        unfold nfCol; rw [e2]; rfl

/-- C54: it succeeds on float phases (or integer t0) with nonzero steps and, for array arguments, one entry per
sample, whenever the model can be evaluated. -/
theorem C54_succeeds {eval : List ℝ → List Name → SState ℝ → Except Err (List ℝ)} {filters : List Name}
    {ph : Phases} {states : List NFState} (he : OnePerTime eval)
    (hf : "times".toList ∉ filters ∧ "rest_phase".toList ∉ filters)
    (hint : ph.isInt = false ∨ ∀ s ∈ states, s.t0Int = true)
    (hph : ∀ k, k < states.length → ∃ lo hi step, phaseAt ph.lo k = some lo ∧ phaseAt ph.hi k = some hi ∧
      phaseAt ph.step k = some step ∧ step ≠ 0)
    (hev : ∀ s ∈ states, ∀ f ∈ filters, ∀ ts, ∃ fl, eval ts (List.replicate ts.length f) s.state = .ok fl) :
    ∃ res, computeNoiseFree eval filters ph states = .ok res := by
  have hone : ∀ (k : Nat) (s : NFState), states[k]? = some s → ∃ lc, noiseFreeOne eval filters ph k s = .ok lc := by
    intro k s hk
    have hs := List.mem_of_getElem? hk
    obtain ⟨lo, hi, step, h1, h2, h3, h0⟩ := hph k (List.getElem?_eq_some_iff.1 hk).1
    unfold noiseFreeOne
    rw [(phaseAt_iff _ _ _).2 h1, (phaseAt_iff _ _ _).2 h2, (phaseAt_iff _ _ _).2 h3]
    simp only [singleNoiseFree]
    have ha : ∃ l, arange lo hi step = .ok l := by unfold arange; rw [if_neg h0]; exact ⟨_, rfl⟩
    obtain ⟨l, ha⟩ := ha
    rw [ha]
    simp only
    have hsh : ∃ ts, shiftTimes s.t0 (ph.isInt && !stretched s.z) s.t0Int (stretchTimes s.z l) = .ok ts := by
      unfold shiftTimes
      cases s.t0 with
      | none => exact ⟨_, rfl⟩
      | some t =>
        simp only
        rw [if_neg]
        · exact ⟨_, rfl⟩
        · rcases hint with hint | hint
          · simp [hint]
          · simp [hint s hs]
    obtain ⟨ts, hts⟩ := hsh
    rw [hts]
    exact evalFilters_ok filters (fun f hf => hev s hs f hf ts) _
  have hloop : ∀ (ss : List NFState) (idx : Nat) (nd : Nested),
      (∀ (k : Nat) (s : NFState), ss[k]? = some s → ∃ lc, noiseFreeOne eval filters ph (idx + k) s = .ok lc) →
      ∃ nd', noiseFreeLoop eval filters ph idx ss nd = .ok nd' := by
    intro ss
    induction ss with
    | nil => intro idx nd _; exact ⟨nd, rfl⟩
    | cons s ss ih =>
      intro idx nd hk
      obtain ⟨lc, hlc⟩ := hk 0 s rfl
      rw [Nat.add_zero] at hlc
      have hext : ∀ (keys : List Name) (d : Dict Name (List NCell)), (∀ c ∈ keys, ∃ l, lc.get? c = some l) →
          ∃ d', extendAll lc keys d = .ok d' := by
        intro keys
        induction keys with
        | nil => intro d _; exact ⟨d, rfl⟩
        | cons c cs ihc =>
          intro d hd
          obtain ⟨l, hl⟩ := hd c (by simp)
          simp only [extendAll, hl]
          exact ihc _ (fun x hx => hd x (List.mem_cons_of_mem _ hx))
      obtain ⟨lo, hh, st, phases, -, -, -, -, g5, g6, g7⟩ := one_spec hf hlc
      obtain ⟨cols, hcols⟩ := hext (nfKeys filters) nd.cols (by
        intro c hc
        rcases (mem_nfKeys _ _).1 hc with rfl | rfl | hc
        · exact ⟨_, g6⟩
        · exact ⟨_, g5⟩
        · obtain ⟨fl, _, e⟩ := g7 c hc; exact ⟨fl, e⟩)
      simp only [noiseFreeLoop, hlc, hcols]
      apply ih
      intro k s' hs'
      have := hk (k + 1) s' (by simpa using hs')
      rwa [show idx + (k + 1) = idx + 1 + k by omega] at this
  obtain ⟨nd, hnd⟩ := hloop states 0 { cols := [], index := [] } (by simpa using hone)
  unfold computeNoiseFree
  rw [hnd]
  simp only
  have hck : checkNested nd = .ok nd := by
    unfold checkNested
    rw [if_pos]
    obtain ⟨lcs, a1, a2, a3, a4⟩ := loop_spec states 0 _ _ hnd
    rw [List.all_eq_true]
    rintro ⟨c, col⟩ hq
    have hidx : nd.index.length = (lcs.map nfLen).sum := by
      rw [a3]
      have : ∀ (l : List (Dict Name (List ℝ))) (i : Nat),
          ((l.zipIdx i).flatMap (fun q => List.replicate (nfLen q.1) q.2)).length = (l.map nfLen).sum := by
        intro l
        induction l with
        | nil => intro i; rfl
        | cons x l ih => intro i; simp [ih]
      simp [this]
    obtain ⟨k1, k2⟩ := loop_keys states 0 _ _ hnd (by simp [Dict.keys]) (by simp [Dict.keys])
    have hcm : c ∈ nfKeys filters := k2 c (List.mem_map.2 ⟨(c, col), hq, rfl⟩)
    have hcol := a4 c hcm
    unfold getc at hcol
    rw [Dict.get?_of_mem k1 hq] at hcol
    simp only [Option.getD_some] at hcol
    have hlen : ∀ lc ∈ lcs, (nfCol c lc).length = nfLen lc := by
      intro lc hlc
      obtain ⟨i, hi⟩ := List.mem_iff_getElem?.1 hlc
      have hi' : i < states.length := by
        have := (List.getElem?_eq_some_iff.1 hi).1; omega
      exact col_length he hf (a2 i _ lc (List.getElem?_eq_getElem hi') hi) hcm
    have : (lcs.flatMap (nfCol c)).length = (lcs.map nfLen).sum := by
      rw [List.length_flatMap]
      congr 1
      exact List.map_congr_left hlen
    rw [beq_iff_eq]
    simp only
    rw [hcol, hidx, ← this]
    rfl
  rw [hck]
  exact ⟨_, rfl⟩

/-! ## Where the property fails, and a case that meets the hypotheses -/

/-- A model whose flux at time `t` is `t`. -/
def idEval : List ℝ → List Name → SState ℝ → Except Err (List ℝ) := fun ts _ _ => .ok ts

/-- A sample with no redshift and a float t0. -/
def plainState : NFState := { state := [], ra := some 1, dec := some 2, z := none, t0 := some 3, t0Int := false }

/-- Phases 0, 1 for every sample. -/
noncomputable def twoPhases (isInt : Bool) : Phases := ⟨.scalar 0, .scalar 2, .scalar 1, isInt⟩

example : OnePerTime idEval ∧ ∃ res, computeNoiseFree idEval ["r".toList] (twoPhases false) [plainState, plainState] = .ok res := by
  have he : OnePerTime idEval := by intro ts fs st out h; cases h; rfl
  refine ⟨he, C54_succeeds he (by decide) (Or.inl rfl) ?_ ?_⟩
  · intro k _; exact ⟨0, 2, 1, rfl, rfl, rfl, one_ne_zero⟩
  · intro s _ f _ ts; exact ⟨ts, rfl⟩

theorem arange_two : arange 0 2 1 = .ok [0, 1] := by
  unfold arange
  rw [if_neg one_ne_zero]
  have : ⌈((2 : ℝ) - 0) / 1⌉.toNat = 2 := by
    have : ((2 : ℝ) - 0) / 1 = ((2 : ℤ) : ℝ) := by norm_num
    rw [this, Int.ceil_intCast]; rfl
  rw [this]
  have : List.range 2 = [0, 1] := rfl
  rw [this]
  simp

/-- C54 fails for integer phases (such as -50, 50, 2): with a float t0 and no positive redshift the call raises
TypeError, though the same phases given as floats work. -/
theorem C54_integer_phases_counterexample (filters : List Name) :
    computeNoiseFree idEval filters (twoPhases true) [plainState] = .error .typeError := by
  have h1 : noiseFreeOne idEval filters (twoPhases true) 0 plainState = .error .typeError := by
    unfold noiseFreeOne twoPhases PhaseArg.at
    simp only [singleNoiseFree, arange_two]
    rfl
  unfold computeNoiseFree
  simp only [noiseFreeLoop, h1]

/-- C54 fails for a passband called "times": the column of times then holds fluxes. -/
theorem C54_times_filter_counterexample :
    ∃ res, computeNoiseFree (fun ts _ _ => .ok (ts.map fun _ => 100)) ["times".toList] (twoPhases false) [plainState] = .ok res ∧
      lightcurve res.nested 0 "times".toList = [.num 100, .num 100] := by
  have h1 : noiseFreeOne (fun ts _ _ => .ok (ts.map fun _ => 100)) ["times".toList] (twoPhases false) 0 plainState =
      .ok [("times".toList, [100, 100]), ("rest_phase".toList, [0, 1])] := by
    unfold noiseFreeOne twoPhases PhaseArg.at
    simp only [singleNoiseFree, arange_two]
    rfl
  have h2 : computeNoiseFree (fun ts _ _ => .ok (ts.map fun _ => 100)) ["times".toList] (twoPhases false) [plainState] =
      .ok ⟨[0], [some 1], [some 2], [], ⟨[("times".toList, [.num 100, .num 100]), ("rest_phase".toList, [.num 0, .num 1])], [0, 0]⟩⟩ := by
    unfold computeNoiseFree
    simp only [noiseFreeLoop, h1]
    rfl
  exact ⟨_, h2, rfl⟩

end LCL.NoiseFreeProps
