import Verif.Spec.Simulate
import Verif.Props.RangeSearch
import Verif.Props.ObsTable

/-!
# Properties C40 (simulated lightcurves line up with the observations) and C41 (time windows)
-/

namespace LCL.SimulateProps
open LCL LCL.SimSpec LCL.ObsSpec LCL.ObsLemmas Real
variable {R : Type}

/-! ## C41 -/

theorem windowSide_ok {op : ℝ → ℝ} {l : List (Option ℝ)} {out : List ℝ} (h : windowSide op l = .ok out) :
    ∃ l' : List ℝ, l = l'.map some ∧ out = l'.map op := by
  unfold windowSide at h
  cases hm : l.mapM id with
  | none => rw [hm] at h; cases h
  | some l' => rw [hm] at h; cases h; exact ⟨l', mapM_id_some.1 hm, rfl⟩

/-- The values of t0, as a list. -/
def t0List : T0Arg → List (Option ℝ)
  | .none => []
  | .scalar x => [some x]
  | .arr l => l

theorem windowBound_ok {op : ℝ → ℝ → ℝ} {l : List (Option ℝ)} {b : Option ℝ} {w : ObsTable.TArg}
    (h : windowBound op l b = .ok w) :
    match b with
    | none => w = .none
    | some b => ∃ l' : List ℝ, l = l'.map some ∧ w = .arr (l'.map fun t => op t b) := by
  cases b with
  | none => simp only [windowBound, Except.ok.injEq] at h; exact h.symm
  | some b =>
    simp only [windowBound] at h
    cases hw : windowSide (fun t => op t b) l with
    | error e => rw [hw] at h; cases h
    | ok l2 =>
      rw [hw] at h
      simp only [Except.ok.injEq] at h
      obtain ⟨l', e1, e2⟩ := windowSide_ok hw
      exact ⟨l', e1, by rw [← h, e2]⟩

theorem windowPair_ok {l o : List (Option ℝ)} {tmin tmax : ObsTable.TArg} (h : windowPair l o = .ok (tmin, tmax)) :
    ∃ before after, o = [before, after] ∧ windowBound (· - ·) l before = .ok tmin ∧
      windowBound (· + ·) l after = .ok tmax := by
  match o, h with
  | [], h => cases h
  | [_], h => cases h
  | _ :: _ :: _ :: _, h => cases h
  | [before, after], h =>
    simp only [windowPair] at h
    cases h1 : windowBound (· - ·) l before with
    | error e => rw [h1] at h; cases h
    | ok s =>
      rw [h1] at h
      simp only at h
      cases h2 : windowBound (· + ·) l after with
      | error e => rw [h2] at h; cases h
      | ok t => rw [h2] at h; cases h; exact ⟨before, after, rfl, h1, h2⟩

theorem windows_cases {t0 : T0Arg} {offset : Option (List (Option ℝ))} {tmin tmax : ObsTable.TArg}
    (h : getTimeWindows t0 offset = .ok (tmin, tmax)) :
    ((t0 = .none ∨ offset = none) ∧ tmin = .none ∧ tmax = .none) ∨
    (t0 ≠ .none ∧ ∃ before after, offset = some [before, after] ∧
      windowBound (· - ·) (t0List t0) before = .ok tmin ∧ windowBound (· + ·) (t0List t0) after = .ok tmax) := by
  cases offset with
  | none => cases h; exact Or.inl ⟨Or.inr rfl, rfl, rfl⟩
  | some o =>
    cases t0 with
    | none => cases h; exact Or.inl ⟨Or.inl rfl, rfl, rfl⟩
    | scalar x =>
      obtain ⟨b, a, rfl, h1, h2⟩ := windowPair_ok h
      exact Or.inr ⟨by simp, b, a, rfl, h1, h2⟩
    | arr l =>
      obtain ⟨b, a, rfl, h1, h2⟩ := windowPair_ok h
      exact Or.inr ⟨by simp, b, a, rfl, h1, h2⟩

theorem t0Of_one (s : SimState) : t0Of [s] = match s.t0 with
    | none => .none
    | some x => .scalar x := rfl

/-- C41. Whenever get_time_windows succeeds on the sampled t0 values, the bounds it gives to object `k` are
`t0 - before` and `t0 + after` of that object, each unbounded when its offset (or the window, or t0) is
None. -/
theorem C41_windows (states : List SimState) (offset : Option (List (Option ℝ))) (tmin tmax : ObsTable.TArg)
    (h : getTimeWindows (t0Of states) offset = .ok (tmin, tmax)) (k : Nat) (s : SimState) (hk : states[k]? = some s) :
    boundAt tmin k = winLo offset s.t0 ∧ boundAt tmax k = winHi offset s.t0 := by
  have ht0 : ∀ l : List ℝ, t0List (t0Of states) = l.map some → (∃ x, s.t0 = some x ∧ l[k]? = some x) ∨ t0Of states = .none := by
    intro l hl
    match states, hk, hl with
    | [], hk, _ => simp at hk
    | [s'], hk, hl =>
      cases k with
      | succ k => simp at hk
      | zero =>
        simp only [List.getElem?_cons_zero, Option.some.injEq] at hk
        subst hk
        rw [t0Of_one] at hl ⊢
        cases hs : s'.t0 with
        | none => right; simp
        | some x =>
          rw [hs] at hl
          simp only [t0List] at hl
          left
          cases l with
          | nil => simp at hl
          | cons y l => simp at hl; exact ⟨x, rfl, by simp [hl.1]⟩
    | s1 :: s2 :: ss, hk, hl =>
      have hl' : (s1 :: s2 :: ss).map (·.t0) = l.map some := hl
      left
      have := congrArg (fun q => q[k]?) hl'
      simp only [List.getElem?_map, hk, Option.map_some] at this
      cases hlk : l[k]? with
      | none => rw [hlk] at this; cases this
      | some x => rw [hlk] at this; simp only [Option.map_some, Option.some.injEq] at this; exact ⟨x, this, rfl⟩
  have hnone : t0Of states = .none → s.t0 = none := by
    intro hn
    match states, hk, hn with
    | [], hk, _ => simp at hk
    | [s'], hk, hn =>
      cases k with
      | succ k => simp at hk
      | zero =>
        simp only [List.getElem?_cons_zero, Option.some.injEq] at hk
        subst hk
        rw [t0Of_one] at hn
        cases hs : s'.t0 with
        | none => rfl
        | some x => rw [hs] at hn; cases hn
    | s1 :: s2 :: ss, _, hn => cases hn
  rcases windows_cases h with ⟨hn, rfl, rfl⟩ | ⟨hne, before, after, rfl, h1, h2⟩
  · rcases hn with hn | rfl
    · rw [hnone hn]
      constructor
      · simp [boundAt, winLo]
      · simp [boundAt, winHi]
    · constructor <;> rfl
  · replace h1 := windowBound_ok h1
    replace h2 := windowBound_ok h2
    constructor
    · cases before with
      | none => simp only at h1; subst h1; simp [boundAt, winLo]
      | some b =>
        obtain ⟨l, e1, rfl⟩ := h1
        rcases ht0 l e1 with ⟨x, hx, hlx⟩ | hno
        · simp [boundAt, winLo, hx, hlx]
        · exact absurd hno hne
    · cases after with
      | none => simp only at h2; subst h2; simp [boundAt, winHi]
      | some a =>
        obtain ⟨l, e1, rfl⟩ := h2
        rcases ht0 l e1 with ⟨x, hx, hlx⟩ | hno
        · simp [boundAt, winHi, hx, hlx]
        · exact absurd hno hne

/-- C41: with a window and numeric t0 values it succeeds; a window that is not a pair raises ValueError. -/
theorem C41_succeeds (l : List ℝ) (before after : Option ℝ) :
    (∃ w, getTimeWindows (.arr (l.map some)) (some [before, after]) = .ok w) ∧
    (∀ x, ∃ w, getTimeWindows (.scalar x) (some [before, after]) = .ok w) ∧
    (∀ (o : List (Option ℝ)) t0, t0 ≠ .none → o.length ≠ 2 → getTimeWindows t0 (some o) = .error .valueError) := by
  have hw : ∀ (l : List ℝ) op, windowSide op (l.map some) = .ok (l.map op) := by
    intro l op; unfold windowSide; rw [mapM_id_some.2 rfl]
  refine ⟨?_, ?_, ?_⟩
  · cases before <;> cases after <;> simp [getTimeWindows, windowPair, windowBound, hw]
  · intro x
    have := fun op => hw [x] op
    simp only [List.map_cons, List.map_nil] at this
    cases before <;> cases after <;> simp [getTimeWindows, windowPair, windowBound, this]
  · intro o t0 ht ho
    match o, ho with
    | [], _ => cases t0 <;> first | exact absurd rfl ht | rfl
    | [_], _ => cases t0 <;> first | exact absurd rfl ht | rfl
    | [_, _], ho => simp at ho
    | _ :: _ :: _ :: _, _ => cases t0 <;> first | exact absurd rfl ht | rfl

/-- C41 fails for a model without t0 when several objects are sampled: for one object a missing t0 means no
window, but for two or more the same request raises TypeError. -/
theorem C41_missing_t0_counterexample (s : SimState) (hs : s.t0 = none) (b : ℝ) (after : Option ℝ) :
    getTimeWindows (t0Of [s]) (some [some b, after]) = .ok (.none, .none) ∧
    getTimeWindows (t0Of [s, s]) (some [some b, after]) = .error .typeError := by
  constructor
  · rw [t0Of_one, hs]; rfl
  · simp [t0Of, hs, getTimeWindows, windowPair, windowBound, windowSide]

example : getTimeWindows (.arr [some 5, some 7]) (some [some 2, none]) = .ok (.arr [5 - 2, 7 - 2], .none) := by
  simp [getTimeWindows, windowPair, windowBound, windowSide]

/-! ## C40 -/

/-- The current content of a column. -/
def getc (d : Dict Name (List NCell)) (c : Name) : List NCell := (d.get? c).getD []

theorem getc_extend (d : Dict Name (List NCell)) (k c : Name) (v : List NCell) :
    getc (extend d k v) c = getc d c ++ (if c = k then v else []) := by
  unfold getc extend
  rw [Dict.get?_set]
  by_cases h : k = c
  · subst h; simp
  · rw [if_neg h, if_neg (Ne.symm h)]; simp

theorem saveAll_spec {t : ObsTable} {oi : ObsIndex} {n : Nat} {cols : List Name} {d d' : Dict Name (List NCell)}
    (h : saveAll t oi n cols d = .ok d') :
    (∀ c ∈ cols, ∃ l, savedCol t oi n c = .ok l) ∧
    ∀ c, getc d' c = getc d c ++ ((cols.filter (fun x => decide (x = c))).map fun x =>
      match savedCol t oi n x with | .ok l => l | .error _ => []).flatten := by
  induction cols generalizing d with
  | nil => cases h; simp
  | cons x cols ih =>
    simp only [saveAll] at h
    cases hx : savedCol t oi n x with
    | error e => rw [hx] at h; cases h
    | ok l =>
      rw [hx] at h
      simp only at h
      obtain ⟨a, b⟩ := ih h
      refine ⟨?_, ?_⟩
      · intro c hc
        rcases List.mem_cons.1 hc with rfl | hc
        · exact ⟨l, hx⟩
        · exact a c hc
      · intro c
        rw [b c, getc_extend, List.filter_cons]
        by_cases hxc : x = c
        · subst hxc
          simp [hx]
        · have : ¬ c = x := fun e => hxc e.symm
          simp [hxc, this]

theorem mapM_getElem {β : Type} {l : List Nat} {c : List β} {out : List β} (h : l.mapM (fun i => c[i]?) = some out) :
    l.map (fun i => c[i]?) = out.map some := by
  induction l generalizing out with
  | nil => cases h; rfl
  | cons i l ih =>
    rw [List.mapM_cons] at h
    cases hi : c[i]? with
    | none => rw [hi] at h; cases h
    | some x =>
      rw [hi] at h
      cases hl : l.mapM (fun i => c[i]?) with
      | none => rw [hl] at h; cases h
      | some l' =>
        rw [hl] at h
        have : out = x :: l' := by cases h; rfl
        subst this
        simp [hi, ih hl]

/-- What one block adds to a saved column. -/
theorem savedCol_spec {t : ObsTable} {oi : ObsIndex} {n : Nat} {c : Name} {l : List NCell} (hn : oi.rows.length = n)
    (h : savedCol t oi n c = .ok l) :
    l = (if t.contains c then oi.rows.map (fun i => match entryOf t c i with
      | some x => NCell.cell x
      | none => .missing) else oi.rows.map (fun _ => .missing)) := by
  unfold savedCol at h
  split at h
  · rename_i hc
    rw [if_pos hc]
    cases hg : t.getItem c with
    | error e => rw [hg] at h; cases h
    | ok col =>
      rw [hg] at h
      simp only at h
      split at h
      · cases h
      · cases hm : oi.rows.mapM (fun i => col[i]?) with
        | none => rw [hm] at h; cases h
        | some out =>
          rw [hm] at h
          cases h
          have := mapM_getElem hm
          apply List.ext_getElem?
          intro i
          have := congrArg (fun q => q[i]?) this
          simp only [List.getElem?_map] at this ⊢
          cases hr : oi.rows[i]? with
          | none =>
            rw [hr] at this
            simp only [Option.map_none] at this ⊢
            cases ho : out[i]? with
            | none => rfl
            | some x => rw [ho] at this; cases this
          | some k =>
            rw [hr] at this
            simp only [Option.map_some] at this ⊢
            cases ho : out[i]? with
            | none => rw [ho] at this; cases this
            | some x =>
              rw [ho] at this
              simp only [Option.map_some, Option.some.injEq] at this ⊢
              simp [entryOf, hg, this]
  · rename_i hc
    rw [if_neg hc]
    cases h
    rw [← hn]
    simp

/-- The base columns a block adds. -/
def basePart (b : Block) (j n : Nat) (c : Name) : List NCell :=
  (if c = "mjd".toList then b.times.map .num else []) ++ ((if c = "filter".toList then b.filters.map .text else []) ++
  ((if c = "flux_perfect".toList then b.perfect.map .num else []) ++ ((if c = "flux".toList then b.flux.map .num else []) ++
  ((if c = "fluxerr".toList then b.err.map .num else []) ++
  (if c = "survey_idx".toList then List.replicate n (.survey j) else [])))))

theorem selectObs_spec {mask : Option (List ℝ → SState ℝ → List Bool)} {times : List ℝ} {filters : List Name} {st : SState ℝ}
    {oi oi' : ObsIndex} {ts : List ℝ} {fs : List Name} (h : selectObs mask times filters st oi = .ok (oi', ts, fs)) :
    oi'.rows.map (fun i => times[i]?) = ts.map some ∧ oi'.rows.map (fun i => filters[i]?) = fs.map some ∧
    ∃ all : List ℝ, oi.rows.map (fun i => times[i]?) = all.map some ∧ oi'.rows = usedRows mask st oi.rows all := by
  unfold selectObs at h
  split at h
  · rename_i h0
    cases h
    have hr : oi.rows = [] := List.length_eq_zero_iff.1 h0
    refine ⟨by simp [hr], by simp [hr], [], by simp [hr], ?_⟩
    unfold usedRows
    rw [hr]
    cases mask with
    | none => rfl
    | some f =>
      simp only
      rw [← keep_eq_gather]; simp
  · cases hm : oi.rows.mapM (fun i => times[i]?) with
    | none => rw [hm] at h; cases h
    | some all =>
      rw [hm] at h
      simp only at h
      have hall := mapM_getElem hm
      cases mask with
      | none =>
        simp only at h
        cases hf : oi.rows.mapM (fun i => filters[i]?) with
        | none => rw [hf] at h; cases h
        | some out =>
          rw [hf] at h
          cases h
          exact ⟨hall, mapM_getElem hf, _, hall, rfl⟩
      | some f =>
        simp only at h
        cases hf : (gather (f all st) oi.rows).mapM (fun i => filters[i]?) with
        | none => rw [hf] at h; cases h
        | some out =>
          rw [hf] at h
          cases h
          refine ⟨?_, mapM_getElem hf, all, hall, ?_⟩
          · simp only
            rw [keep_eq_gather, keep_eq_gather, ← keep_map, ← keep_map, hall]
          · simp only [usedRows, keep_eq_gather]

theorem timeCol_entry {t : ObsTable} {times : List ℝ} (h : timeCol t = .ok times) (i : Nat) :
    entryOf t "time".toList i = times[i]?.map Cell.num := by
  unfold timeCol at h
  unfold entryOf
  cases hg : t.getItem "time".toList with
  | error e => rw [hg] at h; cases h
  | ok c =>
    rw [hg] at h
    simp only at h ⊢
    rw [mapM_num_ok.1 h, List.getElem?_map]

theorem mapM_str_ok {c : List Cell} {l : List Name} (h : c.mapM Cell.str? = .ok l) : c = l.map Cell.str := by
  induction c generalizing l with
  | nil => cases h; rfl
  | cons x c ih =>
    rw [List.mapM_cons] at h
    cases x with
    | num y => cases h
    | str s =>
      cases hc : c.mapM Cell.str? with
      | error e => rw [hc] at h; cases h
      | ok l' =>
        rw [hc] at h
        have : l = s :: l' := by cases h; rfl
        subst this
        simp [ih hc]

theorem textCol_entry {t : ObsTable} {fs : List Name} (h : textCol t = .ok fs) (i : Nat) :
    entryOf t "filter".toList i = fs[i]?.map Cell.str := by
  unfold textCol at h
  unfold entryOf
  cases hg : t.getItem "filter".toList with
  | error e => rw [hg] at h; cases h
  | ok c =>
    rw [hg] at h
    simp only at h ⊢
    rw [mapM_str_ok h, List.getElem?_map]

/-- One object in one survey. -/
theorem simulateOne_spec {noise : List ℝ → List ℝ → R → Except Err (List ℝ × R)}
    {mask : Option (List ℝ → SState ℝ → List Bool)} {saveCols : List Name} {idx j : Nat} {st : SState ℝ} {s : Survey R}
    {times : List ℝ} {filters : List Name} {oi : ObsIndex} {nd nd' : Nested} {n : Nat} {r r' : R}
    (ht : timeCol s.table = .ok times) (hf : textCol s.table = .ok filters)
    (h : simulateOne noise mask saveCols idx j st s times filters oi nd r = .ok (nd', n, r')) :
    ∃ b : Block, BlockOf noise s st b r r' ∧ n = b.rows.length ∧ nd'.index = nd.index ++ List.replicate n idx ∧
      (∃ all : List ℝ, oi.rows.map (entryOf s.table "time".toList) = all.map (fun t => some (.num t)) ∧
        b.rows = usedRows mask st oi.rows all) ∧
      ∃ saved : Name → List NCell, (∀ c ∈ saveCols, saved c = (if s.table.contains c then b.rows.map (fun i =>
          match entryOf s.table c i with | some x => NCell.cell x | none => .missing) else b.rows.map (fun _ => .missing))) ∧
        ∀ c, getc nd'.cols c = getc nd.cols c ++ (basePart b j n c ++
          ((saveCols.filter (fun x => decide (x = c))).map saved).flatten) := by
  unfold simulateOne at h
  cases hs : selectObs mask times filters st oi with
  | error e => rw [hs] at h; cases h
  | ok p =>
    obtain ⟨oi', ts, fs⟩ := p
    rw [hs] at h
    simp only at h
    obtain ⟨h1, h2, all, h3, h4⟩ := selectObs_spec hs
    cases he : s.eval ts fs st r with
    | error e => rw [he] at h; cases h
    | ok p =>
      obtain ⟨perfect, r1⟩ := p
      rw [he] at h
      simp only at h
      cases hr : s.error perfect oi'.rows with
      | error e => rw [hr] at h; cases h
      | ok err =>
        rw [hr] at h
        simp only at h
        cases hn : noise perfect err r1 with
        | error e => rw [hn] at h; cases h
        | ok p =>
          obtain ⟨flux, r2⟩ := p
          rw [hn] at h
          simp only at h
          split at h
          · cases h
          · rename_i d hd
            cases h
            have hlen : oi'.rows.length = ts.length := by
              have := congrArg List.length h1; simpa using this
            obtain ⟨sv1, sv2⟩ := saveAll_spec hd
            refine ⟨⟨oi'.rows, ts, fs, perfect, err, flux⟩, ⟨?_, ?_, r1, he, hr, hn⟩, hlen.symm, rfl, ⟨all, ?_, h4⟩,
              (fun x => match savedCol s.table oi' ts.length x with | .ok l => l | .error _ => []), ?_, ?_⟩
            · simp only
              have := congrArg (List.map (Option.map Cell.num)) h1
              simp only [List.map_map, Function.comp_def, Option.map_some] at this
              rw [← this]
              exact List.map_congr_left fun i _ => timeCol_entry ht i
            · simp only
              have := congrArg (List.map (Option.map Cell.str)) h2
              simp only [List.map_map, Function.comp_def, Option.map_some] at this
              rw [← this]
              exact List.map_congr_left fun i _ => textCol_entry hf i
            · have := congrArg (List.map (Option.map Cell.num)) h3
              simp only [List.map_map, Function.comp_def, Option.map_some] at this
              rw [← this]
              exact List.map_congr_left fun i _ => timeCol_entry ht i
            · intro c hc
              obtain ⟨l, hl⟩ := sv1 c hc
              simp only [hl]
              exact savedCol_spec hlen hl
            · intro c
              rw [sv2 c]
              simp only [getc_extend, basePart, List.append_assoc]

theorem block_lengths {noise : List ℝ → List ℝ → R → Except Err (List ℝ × R)} {surveys : List (Survey R)}
    (hsh : Shaped noise surveys) {s : Survey R} (hs : s ∈ surveys) {st : SState ℝ} {b : Block} {r r' : R}
    (h : BlockOf noise s st b r r') : b.times.length = b.rows.length ∧ b.filters.length = b.rows.length ∧
      b.perfect.length = b.rows.length ∧ b.err.length = b.rows.length ∧ b.flux.length = b.rows.length := by
  obtain ⟨h1, h2, r1, h3, h4, h5⟩ := h
  have l1 : b.times.length = b.rows.length := by have := congrArg List.length h1; simpa using this.symm
  have l2 : b.filters.length = b.rows.length := by have := congrArg List.length h2; simpa using this.symm
  have l3 := hsh.1 s hs _ _ _ _ _ h3
  have l4 := hsh.2.1 s hs _ _ _ h4
  have l5 := hsh.2.2 _ _ _ _ h5
  simp only at l3 l5
  exact ⟨l1, l2, by omega, by omega, by omega⟩

theorem column_length {noise : List ℝ → List ℝ → R → Except Err (List ℝ × R)} {surveys : List (Survey R)}
    (hsh : Shaped noise surveys) {s : Survey R} (hs : s ∈ surveys) {st : SState ℝ} {b : Block} {r r' : R}
    (h : BlockOf noise s st b r r') (j : Nat) (c : Name) : (b.column s j c).length = b.rows.length := by
  obtain ⟨l1, l2, l3, l4, l5⟩ := block_lengths hsh hs h
  unfold Block.column
  split
  · simp [l1]
  split
  · simp [l2]
  split
  · simp [l3]
  split
  · simp [l5]
  split
  · simp [l4]
  split
  · simp
  split
  · simp
  · simp

/-- The base and saved parts together are the column of the block. -/
theorem parts_eq {s : Survey R} {b : Block} {j : Nat} {saveCols : List Name} (hnd : saveCols.Nodup)
    (hdis : ∀ c ∈ saveCols, c ∉ baseCols) {saved : Name → List NCell}
    (hsv : ∀ c ∈ saveCols, saved c = (if s.table.contains c then b.rows.map (fun i =>
          match entryOf s.table c i with | some x => NCell.cell x | none => .missing) else b.rows.map (fun _ => .missing)))
    {c : Name} (hc : c ∈ baseCols ++ saveCols) :
    basePart b j b.rows.length c ++ ((saveCols.filter (fun x => decide (x = c))).map saved).flatten = b.column s j c := by
  by_cases hcs : c ∈ saveCols
  · have hnb := hdis c hcs
    simp only [baseCols, List.mem_cons, List.not_mem_nil, or_false, not_or] at hnb
    obtain ⟨n1, n2, n3, n4, n5, n6⟩ := hnb
    have hfil : saveCols.filter (fun x => decide (x = c)) = [c] := by
      clear hsv hdis hc
      induction saveCols with
      | nil => simp at hcs
      | cons x l ih =>
        rw [List.nodup_cons] at hnd
        rw [List.filter_cons]
        by_cases hxc : x = c
        · subst hxc
          simp only [decide_true, if_true, List.cons.injEq, true_and]
          rw [List.filter_eq_nil_iff]
          intro y hy
          simp only [decide_eq_true_eq]
          rintro rfl
          exact hnd.1 hy
        · simp only [hxc, decide_false, Bool.false_eq_true, if_false]
          exact ih hnd.2 ((List.mem_cons.1 hcs).resolve_left (fun e => hxc e.symm))
    rw [hfil]
    simp only [List.map_cons, List.map_nil, List.flatten_cons, List.flatten_nil, List.append_nil]
    rw [hsv c hcs]
    unfold basePart Block.column
    rw [if_neg n1, if_neg n2, if_neg n5, if_neg n3, if_neg n4, if_neg n6, if_neg n1, if_neg n2, if_neg n5, if_neg n3,
      if_neg n4, if_neg n6]
    exact List.nil_append _
  · have hb : c ∈ baseCols := by
      rcases List.mem_append.1 hc with h | h
      · exact h
      · exact absurd h hcs
    have hfil : saveCols.filter (fun x => decide (x = c)) = [] := by
      rw [List.filter_eq_nil_iff]
      intro y hy
      simp only [decide_eq_true_eq]
      rintro rfl
      exact hcs hy
    rw [hfil]
    simp only [List.map_nil, List.flatten_nil, List.append_nil]
    simp only [baseCols, List.mem_cons, List.not_mem_nil, or_false] at hb
    rcases hb with rfl | rfl | rfl | rfl | rfl | rfl <;> simp [basePart, Block.column]

/-- The rows of survey `p` used for object `idx`. -/
def RowsUsed (mask : Option (List ℝ → SState ℝ → List Bool)) (idx : Nat) (st : SState ℝ) (p : Prepared R) (b : Block) : Prop :=
  ∃ oi all, p.matched[idx]? = some oi ∧
    oi.rows.map (entryOf p.survey.table "time".toList) = (all : List ℝ).map (fun t => some (.num t)) ∧
    b.rows = usedRows mask st oi.rows all

theorem simulateSurveys_spec {noise : List ℝ → List ℝ → R → Except Err (List ℝ × R)}
    {mask : Option (List ℝ → SState ℝ → List Bool)} {saveCols : List Name} (hnd : saveCols.Nodup)
    (hdis : ∀ c ∈ saveCols, c ∉ baseCols) {idx : Nat} {st : SState ℝ} (ps : List (Prepared R)) :
    ∀ (j : Nat) (total : Nat) (nd nd' : Nested) (n : Nat) (r r' : R),
    (∀ p ∈ ps, timeCol p.survey.table = .ok p.times ∧ textCol p.survey.table = .ok p.filters) →
    simulateSurveys noise mask saveCols idx st j ps total nd r = .ok (nd', n, r') →
    ∃ bs : List Block, SurveyBlocks noise st (ps.map (·.survey)) r bs r' ∧ n = total + nobsOf bs ∧
      nd'.index = nd.index ++ List.replicate (nobsOf bs) idx ∧
      List.Forall₂ (RowsUsed mask idx st) ps bs ∧
      ∀ c ∈ baseCols ++ saveCols, getc nd'.cols c = getc nd.cols c ++ surveyColumns j (ps.map (·.survey)) bs c := by
  induction ps with
  | nil =>
    intro j total nd nd' n r r' _ h
    cases h
    exact ⟨[], .nil _, by simp [nobsOf], by simp [nobsOf], .nil, by simp [surveyColumns]⟩
  | cons p ps ih =>
    intro j total nd nd' n r r' hp h
    simp only [simulateSurveys] at h
    cases hm : p.matched[idx]? with
    | none => rw [hm] at h; cases h
    | some oi =>
      rw [hm] at h
      simp only at h
      cases h1 : simulateOne noise mask saveCols idx j st p.survey p.times p.filters oi nd r with
      | error e => rw [h1] at h; cases h
      | ok q =>
        obtain ⟨nd1, n1, r1⟩ := q
        rw [h1] at h
        simp only at h
        obtain ⟨b, hb, e1, e2, ⟨all, ha, hu⟩, saved, sv, hcol⟩ := simulateOne_spec (hp p (by simp)).1 (hp p (by simp)).2 h1
        obtain ⟨bs, f1, f2, f3, f4, f5⟩ := ih (j + 1) (total + n1) nd1 nd' n r1 r' (fun x hx => hp x (List.mem_cons_of_mem _ hx)) h
        refine ⟨b :: bs, .cons hb f1, ?_, ?_, .cons ⟨oi, all, hm, ha, hu⟩ f4, ?_⟩
        · rw [f2, e1]; simp [nobsOf]; omega
        · rw [f3, e2, e1, List.append_assoc, ← List.replicate_add]
          simp [nobsOf]
        · intro c hc
          rw [f5 c hc, hcol c, e1, parts_eq hnd hdis sv hc]
          simp [surveyColumns]

theorem simulateObjects_spec {noise : List ℝ → List ℝ → R → Except Err (List ℝ × R)}
    {mask : Option (List ℝ → SState ℝ → List Bool)} {saveCols : List Name} (hnd : saveCols.Nodup)
    (hdis : ∀ c ∈ saveCols, c ∉ baseCols) (ps : List (Prepared R))
    (hp : ∀ p ∈ ps, timeCol p.survey.table = .ok p.times ∧ textCol p.survey.table = .ok p.filters) (states : List SimState) :
    ∀ (idx : Nat) (nd nd' : Nested) (ns : List Nat) (r r' : R),
    simulateObjects noise mask saveCols ps idx states nd r = .ok (nd', ns, r') →
    ∃ bss : List (List Block), ObjectBlocks noise (ps.map (·.survey)) states r bss r' ∧ ns = bss.map nobsOf ∧
      nd'.index = nd.index ++ (bss.zipIdx idx).flatMap (fun q => List.replicate (nobsOf q.1) q.2) ∧
      (∀ (k : Nat) (s : SimState) (bs : List Block), states[k]? = some s → bss[k]? = some bs →
        List.Forall₂ (RowsUsed mask (idx + k) s.state) ps bs) ∧
      ∀ c ∈ baseCols ++ saveCols, getc nd'.cols c = getc nd.cols c ++
        bss.flatMap (fun bs => surveyColumns 0 (ps.map (·.survey)) bs c) := by
  induction states with
  | nil =>
    intro idx nd nd' ns r r' h
    cases h
    exact ⟨[], .nil _, rfl, by simp, by simp, by simp⟩
  | cons s ss ih =>
    intro idx nd nd' ns r r' h
    simp only [simulateObjects] at h
    cases h1 : simulateSurveys noise mask saveCols idx s.state 0 ps 0 nd r with
    | error e => rw [h1] at h; cases h
    | ok q =>
      obtain ⟨nd1, n1, r1⟩ := q
      rw [h1] at h
      simp only at h
      cases h2 : simulateObjects noise mask saveCols ps (idx + 1) ss nd1 r1 with
      | error e => rw [h2] at h; cases h
      | ok q =>
        obtain ⟨nd2, ns2, r2⟩ := q
        rw [h2] at h
        simp only [Except.ok.injEq, Prod.mk.injEq] at h
        obtain ⟨rfl, rfl, rfl⟩ := h
        obtain ⟨bs, a1, a2, a3, a4, a5⟩ := simulateSurveys_spec hnd hdis ps 0 0 nd nd1 n1 r r1 hp h1
        obtain ⟨bss, b1, b2, b3, b4, b5⟩ := ih (idx + 1) nd1 nd2 ns2 r1 r2 h2
        refine ⟨bs :: bss, .cons a1 b1, ?_, ?_, ?_, ?_⟩
        · simp [a2, b2]
        · rw [b3, a3]; simp [List.zipIdx_cons]
        · intro k s' bs' hk hbk
          cases k with
          | zero =>
            simp only [List.getElem?_cons_zero, Option.some.injEq] at hk hbk
            subst hk hbk
            simpa using a4
          | succ k =>
            simp only [List.getElem?_cons_succ] at hk hbk
            have := b4 k s' bs' hk hbk
            rwa [show idx + 1 + k = idx + (k + 1) by omega] at this
        · intro c hc
          rw [b5 c hc, a5 c hc]
          simp

theorem survey_lengths {noise : List ℝ → List ℝ → R → Except Err (List ℝ × R)} {surveys : List (Survey R)}
    (hsh : Shaped noise surveys) {st : SState ℝ} {r r' : R} {ss : List (Survey R)} {bs : List Block} (hsub : ∀ s ∈ ss, s ∈ surveys)
    (h : SurveyBlocks noise st ss r bs r') (j : Nat) (c : Name) : (surveyColumns j ss bs c).length = nobsOf bs := by
  induction h generalizing j with
  | nil => simp [surveyColumns, nobsOf]
  | cons hb _ ih =>
    simp only [surveyColumns, List.length_append]
    rw [column_length hsh (hsub _ (by simp)) hb, ih (fun s hs => hsub s (List.mem_cons_of_mem _ hs))]
    simp [nobsOf]

theorem objects_lengths {noise : List ℝ → List ℝ → R → Except Err (List ℝ × R)} {surveys : List (Survey R)}
    (hsh : Shaped noise surveys) {r r' : R} {states : List SimState} {bss : List (List Block)}
    (h : ObjectBlocks noise surveys states r bss r') (c : Name) :
    bss.length = states.length ∧ ∀ bs ∈ bss, (surveyColumns 0 surveys bs c).length = nobsOf bs := by
  induction h with
  | nil => simp
  | cons hb _ ih =>
    refine ⟨by simp [ih.1], ?_⟩
    intro bs hbs
    rcases List.mem_cons.1 hbs with rfl | hbs
    · exact survey_lengths hsh (fun s hs => hs) hb 0 c
    · exact ih.2 bs hbs

/-- Grouping by index recovers each object's entries. -/
theorem group {β : Type} (num : β → Nat) (bss : List β) (col : β → List NCell)
    (hl : ∀ bs ∈ bss, (col bs).length = num bs) : ∀ (idx k : Nat),
    ((((bss.zipIdx idx).flatMap (fun q => List.replicate (num q.1) q.2)).zip (bss.flatMap col)).filter
      (fun p => decide (p.1 = idx + k))).map (·.2) = (bss[k]?.map col).getD [] := by
  induction bss with
  | nil => intro idx k; simp
  | cons bs bss ih =>
    intro idx k
    have hlen : (List.replicate (num bs) idx).length = (col bs).length := by simp [hl bs (by simp)]
    simp only [List.zipIdx_cons, List.flatMap_cons]
    rw [List.zip_append hlen, List.filter_append, List.map_append]
    have hself : ∀ (m : Nat) (l : List NCell), ∀ p ∈ (List.replicate m idx).zip l, p.1 = idx := by
      intro m l p hp
      exact (List.mem_replicate.1 (List.of_mem_zip hp).1).2
    have hrest : ∀ p ∈ (((bss.zipIdx (idx + 1)).flatMap (fun q => List.replicate (num q.1) q.2)).zip (bss.flatMap col)), idx < p.1 := by
      intro p hp
      have := (List.of_mem_zip hp).1
      rw [List.mem_flatMap] at this
      obtain ⟨q, hq, hpq⟩ := this
      have hq2 := List.le_snd_of_mem_zipIdx hq
      have := (List.mem_replicate.1 hpq).2
      omega
    cases k with
    | zero =>
      have e1 : (((List.replicate (num bs) idx).zip (col bs)).filter (fun p => decide (p.1 = idx + 0))) =
          (List.replicate (num bs) idx).zip (col bs) := by
        rw [List.filter_eq_self]
        intro p hp; simpa using hself _ _ p hp
      have e2 : ((((bss.zipIdx (idx + 1)).flatMap (fun q => List.replicate (num q.1) q.2)).zip (bss.flatMap col)).filter
          (fun p => decide (p.1 = idx + 0))) = [] := by
        rw [List.filter_eq_nil_iff]
        intro p hp
        have := hrest p hp
        simp only [decide_eq_true_eq]; omega
      rw [e1, e2]
      simp only [List.map_nil, List.append_nil, List.getElem?_cons_zero, Option.map_some, Option.getD_some]
      exact List.map_snd_zip (by omega)
    | succ k =>
      have e1 : (((List.replicate (num bs) idx).zip (col bs)).filter (fun p => decide (p.1 = idx + (k + 1)))) = [] := by
        rw [List.filter_eq_nil_iff]
        intro p hp
        have := hself _ _ p hp
        simp only [decide_eq_true_eq]; omega
      rw [e1]
      have := ih (fun b hb => hl b (List.mem_cons_of_mem _ hb)) (idx + 1) k
      rw [show idx + 1 + k = idx + (k + 1) by omega] at this
      rw [this]
      simp

theorem mapM_prepare {states : List SimState} {tmin tmax : ObsTable.TArg} {surveys : List (Survey R)} {ps : List (Prepared R)}
    (h : surveys.mapM (prepare states tmin tmax) = .ok ps) :
    List.Forall₂ (fun s p => prepare states tmin tmax s = .ok p) surveys ps := by
  induction surveys generalizing ps with
  | nil => cases h; exact .nil
  | cons s ss ih =>
    rw [List.mapM_cons] at h
    cases h1 : prepare states tmin tmax s with
    | error e => rw [h1] at h; cases h
    | ok p =>
      rw [h1] at h
      cases h2 : ss.mapM (prepare states tmin tmax) with
      | error e => rw [h2] at h; cases h
      | ok ps' =>
        rw [h2] at h
        have : ps = p :: ps' := by cases h; rfl
        subst this
        exact .cons h1 (ih h2)

theorem prepare_ok {states : List SimState} {tmin tmax : ObsTable.TArg} {s : Survey R} {p : Prepared R}
    (h : prepare states tmin tmax s = .ok p) :
    p.survey = s ∧ timeCol s.table = .ok p.times ∧ textCol s.table = .ok p.filters ∧
      searchAll s.table states tmin tmax = .ok p.matched := by
  unfold prepare at h
  cases h1 : searchAll s.table states tmin tmax with
  | error e => rw [h1] at h; cases h
  | ok m =>
    rw [h1] at h
    simp only at h
    cases h2 : timeCol s.table with
    | error e => rw [h2] at h; cases h
    | ok times =>
      rw [h2] at h
      simp only at h
      cases h3 : textCol s.table with
      | error e => rw [h3] at h; cases h
      | ok fs => rw [h3] at h; cases h; exact ⟨rfl, rfl, rfl, rfl⟩

/-- The matches of object `k` in a survey are exactly the matching rows, in increasing order. -/
theorem searchAll_spec {t : ObsTable} (hb : Built t) {states : List SimState} {tmin tmax : ObsTable.TArg} {m : List ObsIndex}
    (h : searchAll t states tmin tmax = .ok m) :
    ∃ rad, t.radius = some rad ∧ m.length = states.length ∧ (0 ≤ rad → rad ≤ 180 → ∀ (k : Nat) (s : SimState) (oi : ObsIndex),
      states[k]? = some s → m[k]? = some oi → ∃ ra dec, s.ra = some ra ∧ s.dec = some dec ∧ oi.rows.Pairwise (· < ·) ∧
        ∀ i, i ∈ oi.rows ↔ Match t (ra, dec) rad (boundAt tmin k) (boundAt tmax k) i) := by
  unfold searchAll at h
  cases hs : t.rangeSearch (.arr (states.map (·.ra))) (.arr (states.map (·.dec))) none tmin tmax with
  | error e => rw [hs] at h; cases h
  | ok out =>
    rw [hs] at h
    cases out with
    | one l => cases h
    | many l =>
      simp only at h
      obtain ⟨r, qs, lists, hr, e1, e2, e3, e4, e5⟩ := RangeSearchProps.C37_exact hb hs
      cases hrad : t.radius with
      | none => rw [hrad] at h; cases h
      | some rad =>
        rw [hrad] at h
        cases h
        have hr' : r = rad := by
          rcases hr with hr | ⟨_, hr⟩
          · cases hr
          · rw [hrad] at hr; cases hr; rfl
        subst hr'
        have hl : l = lists := by
          rcases e4 with e4 | ⟨hsc, _⟩
          · cases e4; rfl
          · cases hsc
        subst hl
        simp only [ObsTable.QArg.values] at e1 e2
        have hlen : qs.length = states.length := by
          have := congrArg List.length e1; simpa using this.symm
        refine ⟨r, rfl, by simp [e3, hlen], ?_⟩
        intro h0 h180 k s oi hk hoi
        rw [List.getElem?_zipWith] at hoi
        rw [hk] at hoi
        cases hlk : l[k]? with
        | none => rw [hlk] at hoi; cases hoi
        | some rows =>
          rw [hlk] at hoi
          simp only [Option.some.injEq] at hoi
          subst hoi
          have hkq : k < qs.length := by
            have := (List.getElem?_eq_some_iff.1 hk).1; omega
          have hq := List.getElem?_eq_getElem hkq
          have q1 := congrArg (fun x => x[k]?) e1
          have q2 := congrArg (fun x => x[k]?) e2
          simp only [List.getElem?_map, hk, hq, Option.map_some, Option.some.injEq] at q1 q2
          obtain ⟨p1, p2⟩ := e5 h0 h180 k _ rows hq hlk
          exact ⟨_, _, q1, q2, p1, p2⟩

theorem prepared_all {states : List SimState} {tmin tmax : ObsTable.TArg} {surveys : List (Survey R)}
    {ps : List (Prepared R)} (hF : List.Forall₂ (fun s p => prepare states tmin tmax s = .ok p) surveys ps) :
    ps.map (·.survey) = surveys ∧
    ∀ p ∈ ps, timeCol p.survey.table = .ok p.times ∧ textCol p.survey.table = .ok p.filters := by
  induction hF with
  | nil => simp
  | cons h1 _ ih =>
    obtain ⟨e1, e2, e3, _⟩ := prepare_ok h1
    refine ⟨by simp [e1, ih.1], ?_⟩
    intro p hp
    rcases List.mem_cons.1 hp with rfl | hp
    · rw [e1]; exact ⟨e2, e3⟩
    · exact ih.2 p hp

/-- C40. If a simulation succeeds (saved columns being distinct and none of the standard ones), then there is
one result row per sampled object, in order, with that object's position, and there are blocks of
observations, one per object and survey, such that:
every block's times, filters, noise-free fluxes, errors and noisy fluxes belong to its own rows of its own
survey; object `k`'s lightcurve consists, in every column (standard or saved), of the blocks of object `k`
in survey order, and its nobs is the total number of rows; and the rows of a block are those matching the
object's position within its time window, in table order, after the optional mask. -/
theorem C40_lightcurves_partial {noise : List ℝ → List ℝ → R → Except Err (List ℝ × R)} {isBand : Bool}
    {states : List SimState} {surveys : List (Survey R)} {npb : Nat} {saveCols : List Name}
    {mask : Option (List ℝ → SState ℝ → List Bool)} {offset : Option (List (Option ℝ))} {r r' : R} {res : SimResult}
    (hsh : Shaped noise surveys) (hnd : saveCols.Nodup) (hdis : ∀ c ∈ saveCols, c ∉ baseCols)
    (hbuilt : ∀ s ∈ surveys, Built s.table)
    (h : simulateLightcurves noise isBand states surveys npb saveCols mask offset r = .ok (res, r')) :
    res.ids = List.range states.length ∧ res.ra = states.map (·.ra) ∧ res.dec = states.map (·.dec) ∧
    ∃ bss : List (List Block), ObjectBlocks noise surveys states r bss r' ∧ bss.length = states.length ∧
      res.nobs = bss.map nobsOf ∧
      (∀ (k : Nat) (bs : List Block), bss[k]? = some bs → ∀ c ∈ baseCols ++ saveCols,
        lightcurve res.nested k c = surveyColumns 0 surveys bs c ∧ (lightcurve res.nested k c).length = nobsOf bs) ∧
      ∀ (k j : Nat) (s : SimState) (sv : Survey R) (bs : List Block) (b : Block), states[k]? = some s → surveys[j]? = some sv →
        bss[k]? = some bs → bs[j]? = some b → ∀ rad, sv.table.radius = some rad → 0 ≤ rad → rad ≤ 180 →
        ∃ ra dec matched all, s.ra = some ra ∧ s.dec = some dec ∧ matched.Pairwise (· < ·) ∧
          (∀ i, i ∈ matched ↔ Match sv.table (ra, dec) rad (winLo offset s.t0) (winHi offset s.t0) i) ∧
          matched.map (entryOf sv.table "time".toList) = (all : List ℝ).map (fun t => some (.num t)) ∧
          b.rows = usedRows mask s.state matched all := by
  unfold simulateLightcurves at h
  split at h
  · cases h
  split at h
  · cases h
  split at h
  · cases h
  cases hw : getTimeWindows (t0Of states) offset with
  | error e => rw [hw] at h; cases h
  | ok w =>
    obtain ⟨tmin, tmax⟩ := w
    rw [hw] at h
    simp only at h
    cases hps : surveys.mapM (prepare states tmin tmax) with
    | error e => rw [hps] at h; cases h
    | ok ps =>
      rw [hps] at h
      simp only at h
      cases hso : simulateObjects noise mask saveCols ps 0 states (emptyNested saveCols) r with
      | error e => rw [hso] at h; cases h
      | ok q =>
        obtain ⟨nd, ns, r2⟩ := q
        rw [hso] at h
        simp only at h
        cases hck : checkNested nd with
        | error e => rw [hck] at h; cases h
        | ok nd' =>
          rw [hck] at h
          simp only [Except.ok.injEq, Prod.mk.injEq] at h
          obtain ⟨rfl, rfl⟩ := h
          have hnn : nd' = nd := by
            unfold checkNested at hck
            split at hck
            · cases hck; rfl
            · cases hck
          subst hnn
          have hF := mapM_prepare hps
          obtain ⟨hsv, hp⟩ := prepared_all hF
          obtain ⟨bss, a1, a2, a3, a4, a5⟩ := simulateObjects_spec hnd hdis ps hp states 0 _ _ _ _ _ hso
          rw [hsv] at a1 a5
          refine ⟨rfl, rfl, rfl, bss, a1, (objects_lengths hsh a1 []).1, a2, ?_, ?_⟩
          · intro k bs hk c hc
            have hl := (objects_lengths hsh a1 c).2
            have hempty : getc (emptyNested saveCols).cols c = [] := by
              have : ∀ (l : List Name) (d : Dict Name (List NCell)), (∀ c, getc d c = []) →
                  ∀ c, getc (l.foldl (fun (d : Dict Name (List NCell)) c => Dict.set d c []) d) c = [] := by
                intro l
                induction l with
                | nil => intro d hd c; exact hd c
                | cons x l ih =>
                  intro d hd c
                  apply ih
                  intro c'
                  unfold getc
                  rw [Dict.get?_set]
                  split
                  · rfl
                  · exact hd c'
              apply this
              intro c'
              unfold getc
              cases hg : Dict.get? (baseCols.map fun c => (c, ([] : List NCell))) c' with
              | none => rfl
              | some v =>
                have := Dict.mem_of_get? hg
                obtain ⟨x, _, e⟩ := List.mem_map.1 this
                cases e; rfl
            have hcol := a5 c hc
            rw [hempty, List.nil_append] at hcol
            have hidx : nd'.index = (bss.zipIdx 0).flatMap (fun q => List.replicate (nobsOf q.1) q.2) := by
              rw [a3]; simp [emptyNested]
            have hlc : lightcurve nd' k c = surveyColumns 0 surveys bs c := by
              unfold lightcurve
              unfold getc at hcol
              rw [hcol, hidx]
              have := group nobsOf bss (fun bs => surveyColumns 0 surveys bs c) hl 0 k
              rw [Nat.zero_add] at this
              rw [this, hk]
              rfl
            exact ⟨hlc, by rw [hlc]; exact hl bs (List.mem_of_getElem? hk)⟩
          · intro k j s sv bs b hk hj hbk hbj rad hrad h0 h180
            have hru := a4 k s bs hk hbk
            rw [Nat.zero_add] at hru
            have hlp : ps.length = surveys.length := by rw [← hsv]; simp
            have hjp : j < ps.length := by
              have := (List.getElem?_eq_some_iff.1 hj).1; omega
            have hpj := List.getElem?_eq_getElem hjp
            have hr : RowsUsed mask k s.state ps[j] b := by
              have hjb : j < bs.length := (List.getElem?_eq_some_iff.1 hbj).1
              have := List.Forall₂.get hru (i := j) hjp hjb
              simp only [List.get_eq_getElem] at this
              rw [List.getElem?_eq_getElem hjb] at hbj
              cases hbj
              exact this
            have hpr : prepare states tmin tmax sv = .ok ps[j] := by
              have hjs : j < surveys.length := by omega
              have := List.Forall₂.get hF (i := j) hjs hjp
              simp only [List.get_eq_getElem] at this
              rw [List.getElem?_eq_getElem hjs] at hj
              cases hj
              exact this
            obtain ⟨e1, e2, e3, e4⟩ := prepare_ok hpr
            obtain ⟨oi, all, u1, u2, u3⟩ := hr
            obtain ⟨rad', q1, q2, q3⟩ := searchAll_spec (hbuilt sv (List.mem_of_getElem? hj)) e4
            rw [hrad] at q1
            cases q1
            obtain ⟨ra, dec, s1, s2, s3, s4⟩ := q3 h0 h180 k s oi hk u1
            obtain ⟨w1, w2⟩ := C41_windows states offset tmin tmax hw k s hk
            rw [w1, w2] at s4
            rw [e1] at u2
            exact ⟨ra, dec, oi.rows, all, s1, s2, s3, s4, u2, u3⟩

/-! ## Concrete simulations -/

open ObsTable ObsTableProps

/-- A survey of two observations of the point (0, 0); the model's flux at time `t` is `t`, errors are zero. -/
noncomputable def demoSurvey : Survey Unit where
  table := twoTable
  eval := fun ts _ _ r => .ok (ts, r)
  error := fun p _ => .ok (p.map fun _ => 0)

/-- No noise. -/
def noNoise : List ℝ → List ℝ → Unit → Except Err (List ℝ × Unit) := fun p _ r => .ok (p, r)

/-- An object at the given position. -/
def demoObject (ra : ℝ) : SimState := { state := [], ra := some ra, dec := some 0, t0 := some 7 }

theorem demo_shaped : Shaped noNoise [demoSurvey] := by
  refine ⟨?_, ?_, ?_⟩
  · intro s hs ts fs st r out h
    rw [List.mem_singleton] at hs
    subst hs
    cases h; rfl
  · intro s hs p rows e h
    rw [List.mem_singleton] at hs
    subst hs
    cases h; simp
  · intro p e r out h
    cases h; rfl

theorem chord_one : 0 ≤ chordRadius 1 ∧ chordRadius 1 < 2 := by
  have hpi := pi_pos
  unfold chordRadius
  have h1 : 0 ≤ sin (1 * (π / 180) / 2) := sin_nonneg_of_nonneg_of_le_pi (by positivity) (by linarith)
  have h2 : sin (1 * (π / 180) / 2) < sin (π / 2) :=
    sin_lt_sin_of_lt_of_le_pi_div_two (by linarith) le_rfl (by linarith)
  rw [sin_pi_div_two] at h2
  constructor <;> linarith

theorem ball_near : queryBall twoTable.tree (toCart 0 0) (chordRadius 1) = [0, 1] := by
  have hd : dist3 (toCart 0 0) (toCart 0 0) = 0 := RangeSearchProps.dist_self _
  have h : List.range twoTable.tree.length = [0, 1] := rfl
  unfold queryBall
  rw [h]
  simp [List.filter_cons, twoTable, hd, chord_one.1]

theorem ball_far : queryBall twoTable.tree (toCart 180 0) (chordRadius 1) = [] := by
  have hd : dist3 (toCart 0 0) (toCart 180 0) = 2 := by
    unfold dist3 toCart
    have : (180 : ℝ) * (π / 180) = π := by ring
    simp [this]
    norm_num
  have h : List.range twoTable.tree.length = [0, 1] := rfl
  unfold queryBall
  rw [h]
  simp [List.filter_cons, twoTable, hd, not_le.2 chord_one.2]

/-- The prepared survey for one object seen in the rows `l`. -/
noncomputable def demoPrepared (l : List Nat) : Prepared Unit :=
  { survey := demoSurvey, times := [7, 8], filters := ["g".toList, "r".toList],
    matched := [{ rows := l, untyped := l.isEmpty }] }

theorem demo_prepare (ra : ℝ) (l : List Nat) (hl : queryBall twoTable.tree (toCart ra 0) (chordRadius 1) = l) :
    prepare [demoObject ra] .none .none demoSurvey =
      .ok (demoPrepared l) := by
  have hrad : twoTable.radius = some 1 := rfl
  have hr : (none <|> twoTable.radius) = some 1 := rfl
  have hq : queryPoints (.arr [some ra]) (.arr [some 0]) = .ok [(ra, 0)] := by simp [queryPoints, QArg.values]
  have hs : twoTable.rangeSearch (.arr [some ra]) (.arr [some 0]) none .none .none = .ok (.many [l]) := by
    unfold rangeSearch
    rw [hq]
    simp only [hr, List.map_cons, List.map_nil, hl, timeStep, TArg.isNone, and_self, if_true]
    rfl
  have h1 : searchAll demoSurvey.table [demoObject ra] .none .none = .ok [{ rows := l, untyped := l.isEmpty }] := by
    have hs' : demoSurvey.table.rangeSearch (.arr ([demoObject ra].map (·.ra))) (.arr ([demoObject ra].map (·.dec))) none
        .none .none = .ok (.many [l]) := hs
    unfold searchAll
    rw [hs']
    have hrad' : demoSurvey.table.radius = some 1 := hrad
    simp only [hrad', demoObject]
    simp only [List.zipWith, demoSurvey, hl]
  have h2 : timeCol demoSurvey.table = .ok [7, 8] := rfl
  have h3 : textCol demoSurvey.table = .ok ["g".toList, "r".toList] := rfl
  unfold prepare
  rw [h1, h2, h3]
  rfl

theorem demo_run (ra : ℝ) (l : List Nat) (hl : queryBall twoTable.tree (toCart ra 0) (chordRadius 1) = l) (save : List Name) :
    simulateLightcurves noNoise false [demoObject ra] [demoSurvey] 1 save none none () =
      match simulateObjects noNoise none save [demoPrepared l] 0 [demoObject ra] (emptyNested save) () with
        | .error e => .error e
        | .ok (nd, ns, r) => match checkNested nd with
          | .error e => .error e
          | .ok nd => .ok ({ ids := [0], ra := [some ra], dec := [some 0], nobs := ns, nested := nd }, r) := by
  have hp : [demoSurvey].mapM (prepare [demoObject ra] .none .none) = .ok [demoPrepared l] := by
    simp only [List.mapM_cons, List.mapM_nil]
    rw [demo_prepare ra l hl]
    rfl
  have hw : getTimeWindows (t0Of [demoObject ra]) none = .ok (.none, .none) := rfl
  unfold simulateLightcurves
  rw [if_neg (by simp), if_neg (by simp), if_neg (by simp), hw]
  simp only
  rw [hp]
  dsimp only
  cases simulateObjects noNoise none save [demoPrepared l] 0 [demoObject ra] (emptyNested save) () with
  | error e => rfl
  | ok q => rfl

/-- The hypotheses of C40 are met: a simulation of an object at (0, 0) succeeds, with two entries. -/
example : Shaped noNoise [demoSurvey] ∧ (∀ s ∈ [demoSurvey], Built s.table) ∧
    ∃ res, simulateLightcurves noNoise false [demoObject 0] [demoSurvey] 1 ["ra".toList] none none () = .ok (res, ()) ∧
      res.nobs = [2] ∧ lightcurve res.nested 0 "mjd".toList = [.num 7, .num 8] ∧
      lightcurve res.nested 0 "filter".toList = [.text "g".toList, .text "r".toList] ∧
      lightcurve res.nested 0 "ra".toList = [.cell (.num 0), .cell (.num 0)] := by
  refine ⟨demo_shaped, by simpa [demoSurvey] using twoTable_built, ?_⟩
  exact ⟨_, (demo_run 0 [0, 1] ball_near _).trans rfl, rfl, rfl, rfl, rfl⟩

/-- C40 fails for an object outside every pointing when a table column is to be saved: the simulation raises
IndexError instead of giving the object an empty lightcurve. The same request without saved columns gives an
empty lightcurve. -/
theorem C40_unobserved_saved_column_counterexample :
    (∃ res, simulateLightcurves noNoise false [demoObject 180] [demoSurvey] 1 [] none none () = .ok (res, ()) ∧
      res.nobs = [0]) ∧
    simulateLightcurves noNoise false [demoObject 180] [demoSurvey] 1 ["ra".toList] none none () = .error .indexError :=
  ⟨⟨_, (demo_run 180 [] ball_far _).trans rfl, rfl⟩, (demo_run 180 [] ball_far _).trans rfl⟩

/-- C40 fails when a standard column is also listed among the columns to save: its entries are recorded twice
and the simulation raises ValueError. -/
theorem C40_standard_column_counterexample :
    simulateLightcurves noNoise false [demoObject 0] [demoSurvey] 1 ["filter".toList] none none () = .error .valueError :=
  (demo_run 0 [0, 1] ball_near _).trans rfl

end LCL.SimulateProps
