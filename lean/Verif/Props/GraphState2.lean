import Verif.Lemmas.GraphState3

/-!
# Properties C05, C06, C10, C60: concatenation, exports, transposition
-/

namespace LCL.GraphProps
open LCL LCL.GraphSpec LCL.GraphLemmas
variable {α : Type}

theorem obtainable_shape {g : GState α} (h : Obtainable g) : Shape g := by
  rcases h with h | ⟨s, i, hs, hi⟩
  · exact (reachable_wf h).toShape
  · have hw := reachable_wf hs
    by_cases hr : i < 0 ∨ i ≥ s.numSamples
    · unfold GState.extractSample at hi; rw [if_pos hr] at hi; cases hi
    · obtain ⟨k, rfl⟩ := Int.eq_ofNat_of_zero_le (a := i) (by omega)
      rw [extractSample_ok s hw.toShape k (by omega)] at hi
      cases hi; exact sampleOf_shape s hw.toShape k

private theorem cells_eq (v : Val α) : GState.atLeast1d v = cells v := by cases v <;> rfl

/-! ## C05 — concatenation -/

/-- C05 (general): concatenating states with the same parameters, each contributing
`num_samples` rows per parameter, succeeds for every iteration order of the name set; the rows
of every parameter are the rows of the inputs in input order. -/
theorem C05_concat_rows (order : List Name → List Name) (hord : ∀ l, (order l).Perm l)
    (g0 : GState α) (gs : List (GState α)) (hob : ∀ g ∈ g0 :: gs, Obtainable g)
    (hsame : ∀ g ∈ gs, ∀ n p, (readParam g n p).isSome = (readParam g0 n p).isSome)
    (hrows : ∀ g ∈ g0 :: gs, ∀ n p v, readParam g n p = some v → (cells v).length = g.numSamples) :
    ∃ t, GState.fromList order ((g0 :: gs).map .graph) = .ok t ∧
      t.numSamples = ((g0 :: gs).map (·.numSamples)).sum ∧
      ∀ n p, readParam t n p =
        if (readParam g0 n p).isSome then
          some (.arr ((g0 :: gs).flatMap fun g => ((readParam g n p).map cells).getD []))
        else none := by
  have hsh : ∀ g ∈ g0 :: gs, Shape g := fun g hg => obtainable_shape (hob g hg)
  have h0 : Shape g0 := hsh g0 (by simp)
  have hread : ∀ g ∈ g0 :: gs, ∀ n p, readParam g n p = look g n p :=
    fun g hg n p => read_eq_look g (hsh g hg) n p
  have hlook : ∀ g ∈ g0 :: gs, ∀ n p, (∃ v, look g n p = some v) ↔ (n, p) ∈ pairs g0 := by
    intro g hg n p
    rw [mem_pairs_iff g0 h0, ← Option.isSome_iff_exists, ← Option.isSome_iff_exists]
    rcases List.mem_cons.1 hg with rfl | hg'
    · rfl
    · rw [← hread g hg, hsame g hg', hread g0 (by simp)]
  have hdots : ∀ q ∈ pairs g0, hasDot q.1 = false ∧ hasDot q.2 = false := by
    rintro ⟨n, p⟩ hm
    obtain ⟨v, hv⟩ := (mem_pairs_iff g0 h0 n p).1 hm
    exact look_dotfree h0 hv
  -- collection
  have hnames : ∀ g ∈ gs, ∀ x, x ∈ g.allNames ↔ x ∈ g0.allNames := by
    intro g hg x
    have hgs := hsh g (List.mem_cons_of_mem _ hg)
    have hg' := List.mem_cons_of_mem g0 hg
    rw [allNames_eq, allNames_eq]
    constructor
    · intro hx
      obtain ⟨⟨n, p⟩, hm, rfl⟩ := List.mem_map.1 hx
      exact List.mem_map.2 ⟨(n, p), (hlook g hg' n p).1 ((mem_pairs_iff g hgs n p).1 hm), rfl⟩
    · intro hx
      obtain ⟨⟨n, p⟩, hm, rfl⟩ := List.mem_map.1 hx
      exact List.mem_map.2 ⟨(n, p), (mem_pairs_iff g hgs n p).2 ((hlook g hg' n p).2 hm), rfl⟩
  have hcoll : GState.fromListCollect none ((g0 :: gs).map .graph) = .ok (g0.allNames, g0 :: gs) := by
    simp only [List.map_cons]
    unfold GState.fromListCollect
    simp only [bind, Except.bind]
    rw [fromListCollect_ok g0.allNames gs hnames]
    rfl
  -- the names, in the iteration order
  let back : Name → Name × Name := fun x => ((splitDot x).headD [], (splitDot x).getD 1 [])
  have hback : ∀ q ∈ pairs g0, back (GState.extendedName q.1 q.2) = q := by
    intro q hq
    have := hdots q hq
    simp [back, GState.extendedName, splitDot_join this.1 this.2]
  let names := (order g0.allNames).map back
  have hperm : names.Perm (pairs g0) := by
    have h1 := (hord g0.allNames).map back
    have h2 : (g0.allNames).map back = pairs g0 := by
      rw [allNames_eq, List.map_map]
      conv => rhs; rw [← List.map_id (pairs g0)]
      apply List.map_congr_left
      intro q hq; exact hback q hq
    rw [h2] at h1; exact h1
  have hext : names.map (fun q => GState.extendedName q.1 q.2) = order g0.allNames := by
    simp only [names, List.map_map]
    conv => rhs; rw [← List.map_id (order g0.allNames)]
    apply List.map_congr_left
    intro x hx
    have : x ∈ g0.allNames := (hord _).mem_iff.1 hx
    rw [allNames_eq] at this
    obtain ⟨q, hq, rfl⟩ := List.mem_map.1 this
    simp [hback q hq]
  have hnod : names.Nodup := hperm.nodup_iff.2 (pairs_nodup g0 h0)
  let col : Name → Name → List (Val α) := fun n p =>
    (g0 :: gs).flatMap fun g => ((look g n p).map GState.atLeast1d).getD []
  have hcol : ∀ q ∈ names, GState.concatColumn (g0 :: gs) (GState.extendedName q.1 q.2) = .ok (col q.1 q.2) := by
    intro q hq
    apply concatColumn_ok _ _ _ hsh
    intro g hg
    exact (hlook g hg q.1 q.2).2 (hperm.mem_iff.1 hq)
  let total := ((g0 :: gs).map (·.numSamples)).sum
  have htot : 1 ≤ total := by
    have := h0.pos
    simp only [total, List.map_cons, List.sum_cons]; omega
  have hlen : ∀ q ∈ names, (col q.1 q.2).length = total := by
    intro q hq
    have hq' := hperm.mem_iff.1 hq
    simp only [col, total, List.length_flatMap]
    congr 1
    apply List.map_congr_left
    intro g hg
    obtain ⟨v, hv⟩ := (hlook g hg q.1 q.2).2 hq'
    rw [hv]
    simp only [Option.map_some, Option.getD_some, cells_eq]
    exact hrows g hg q.1 q.2 v (by rw [hread g hg, hv])
  obtain ⟨s0, hs0⟩ := init_ok (α := α) (n := (total : Int)) (by omega)
  have hs0n : s0.numSamples = total := by have := init_numSamples hs0; omega
  have hwr : Writable s0 (names.map fun q => (q.1, q.2, .arr (col q.1 q.2))) := by
    apply init_writable hs0
    · intro t ht
      obtain ⟨q, hq, rfl⟩ := List.mem_map.1 ht
      exact hdots q (hperm.mem_iff.1 hq)
    · intro t ht
      obtain ⟨q, hq, rfl⟩ := List.mem_map.1 ht
      rw [hs0n]
      refine ⟨.arr (col q.1 q.2), ?_⟩
      unfold GState.normalise
      split
      · rfl
      · simp [hlen q hq]
  obtain ⟨t, ht, hwt, hnt, hlt⟩ := fromListFill_ok (g0 :: gs) names hnod col hcol s0 hwr
  refine ⟨t, ?_, hnt.trans hs0n, ?_⟩
  · unfold GState.fromList
    have : ¬ ((g0 :: gs).map GState.ListElem.graph).length = 0 := by simp
    rw [if_neg this]
    simp only [hcoll, bind, Except.bind]
    rw [hext] at ht
    have e : ((((g0 :: gs).map (·.numSamples)).sum : Nat) : Int) = (total : Int) := rfl
    rw [e, hs0]
    exact ht
  · intro n p
    rw [read_eq_look t hwt.toShape, hlt, init_look hs0, hread g0 (by simp)]
    have hiff : (n, p) ∈ names ↔ (look g0 n p).isSome = true := by
      rw [hperm.mem_iff, mem_pairs_iff g0 h0, Option.isSome_iff_exists]
    by_cases hm : (n, p) ∈ names
    · rw [if_pos hm, if_pos (hiff.1 hm)]
      congr 2
      simp only [col]
      rw [List.flatMap_def, List.flatMap_def]
      congr 1
      apply List.map_congr_left
      intro g hg
      rw [hread g hg]
      cases look g n p <;> simp [cells_eq]
    · rw [if_neg hm, if_neg (fun h => hm (hiff.2 h))]

/-- C05: an empty list and lists with differing parameter sets are rejected. -/
theorem C05_concat_rejects (order : List Name → List Name) :
    GState.fromList order ([] : List (GState.ListElem α)) = .error .valueError ∧
    ∀ (g0 : GState α) (gs : List (GState α)), (∀ g ∈ g0 :: gs, Obtainable g) →
      (∃ g ∈ gs, ∃ n p, (readParam g n p).isSome ≠ (readParam g0 n p).isSome) →
      GState.fromList order ((g0 :: gs).map .graph) = .error .valueError := by
  refine ⟨rfl, ?_⟩
  rintro g0 gs hob ⟨g, hg, n, p, hne⟩
  have h0 := obtainable_shape (hob g0 (by simp))
  have hgS := obtainable_shape (hob g (List.mem_cons_of_mem _ hg))
  have hbad : GState.fromListCollect (some g0.allNames) (gs.map .graph) = .error .valueError := by
    apply fromListCollect_bad
    refine ⟨g, hg, ?_⟩
    intro hall
    apply hne
    rw [read_eq_look g hgS, read_eq_look g0 h0]
    by_cases hd : hasDot n = false ∧ hasDot p = false
    · have := hall (GState.extendedName n p)
      rw [mem_allNames g hgS hd.1 hd.2, mem_allNames g0 h0 hd.1 hd.2,
        mem_pairs_iff g hgS, mem_pairs_iff g0 h0, ← Option.isSome_iff_exists, ← Option.isSome_iff_exists] at this
      rw [Bool.eq_iff_iff]; exact this
    · have e1 : look g n p = none := by
        cases h : look g n p with
        | none => rfl
        | some v => exact absurd (look_dotfree hgS h) hd
      have e2 : look g0 n p = none := by
        cases h : look g0 n p with
        | none => rfl
        | some v => exact absurd (look_dotfree h0 h) hd
      rw [e1, e2]
  unfold GState.fromList
  have : ¬ ((g0 :: gs).map GState.ListElem.graph).length = 0 := by simp
  rw [if_neg this]
  have hcoll : GState.fromListCollect none ((g0 :: gs).map .graph) = .error .valueError := by
    simp only [List.map_cons]
    unfold GState.fromListCollect
    simp only [bind, Except.bind]
    rw [hbad]
  simp only [hcoll, bind, Except.bind]

/-- C05 (round trip), partial: iterating over a reachable state with several samples whose
cells are not themselves arrays, and concatenating the samples, gives the same samples and the
same values. Missing: array-valued parameters, for which it is false
(`C05_roundtrip_counterexample`). -/
theorem C05_roundtrip_partial (order : List Name → List Name) (hord : ∀ l, (order l).Perm l)
    (s : GState α) (hs : Reachable s) (hn : s.numSamples ≠ 1)
    (hcell : ∀ n p rows, readParam s n p = some (.arr rows) → ∀ r ∈ rows, isCell r) :
    ∃ samples t, s.iterate = .ok samples ∧ samples.length = s.numSamples ∧
      GState.fromList order (samples.map .graph) = .ok t ∧
      t.numSamples = s.numSamples ∧ ∀ n p, readParam t n p = readParam s n p := by
  have hw := reachable_wf hs
  have hsh := hw.toShape
  refine ⟨(List.range s.numSamples).map (sampleOf s), ?_⟩
  rw [iterate_ok s hsh]
  have hpos := hsh.pos
  obtain ⟨k, hk⟩ : ∃ k, s.numSamples = k + 1 := ⟨s.numSamples - 1, by omega⟩
  have hsamp : ∀ i, i < s.numSamples → Obtainable (sampleOf s i) := fun i hi =>
    Or.inr ⟨s, i, hs, extractSample_ok s hsh i hi⟩
  have hrd : ∀ i n p, readParam (sampleOf s i) n p = (look s n p).map fun v => rowD v i := by
    intro i n p
    rw [read_eq_look _ (sampleOf_shape s hsh i), look_sampleOf]
    simp [hn]
  have hcells : ∀ i, i < s.numSamples → ∀ n p v, look s n p = some v → cells (rowD v i) = [rowD v i] := by
    intro i hi n p v hv
    obtain ⟨l, rfl, hl⟩ := hsh.rows hn n p v hv
    have hil : i < l.length := by omega
    have : rowD (.arr l) i = l[i] := by simp [rowD, List.getElem?_eq_getElem hil]
    rw [this]
    have hc := hcell n p l (by rw [read_eq_look s hsh, hv]) l[i] (List.getElem_mem hil)
    cases hx : l[i] with
    | none => rfl
    | scalar a => rfl
    | arr r => exact absurd hx (hc r)
  have hrange : List.range s.numSamples = 0 :: (List.range k).map (· + 1) := by
    rw [hk, List.range_succ_eq_map]
  have hmem : ∀ g ∈ (List.range s.numSamples).map (sampleOf s), ∃ i, i < s.numSamples ∧ g = sampleOf s i := by
    intro g hg
    obtain ⟨i, hi, rfl⟩ := List.mem_map.1 hg
    exact ⟨i, List.mem_range.1 hi, rfl⟩
  have hsplit : (List.range s.numSamples).map (sampleOf s) =
      sampleOf s 0 :: ((List.range k).map (· + 1)).map (sampleOf s) := by rw [hrange]; rfl
  obtain ⟨t, ht1, ht2, ht3⟩ := C05_concat_rows order hord (sampleOf s 0)
    (((List.range k).map (· + 1)).map (sampleOf s))
    (by rw [← hsplit]; intro g hg; obtain ⟨i, hi, rfl⟩ := hmem g hg; exact hsamp i hi)
    (by
      intro g hg n p
      obtain ⟨i, _, rfl⟩ := List.mem_map.1 hg
      rw [hrd, hrd]; simp)
    (by
      rw [← hsplit]; intro g hg n p v hv
      obtain ⟨i, hi, rfl⟩ := hmem g hg
      rw [hrd] at hv
      cases hl : look s n p with
      | none => simp [hl] at hv
      | some u =>
        simp [hl] at hv; subst hv
        rw [hcells i hi n p u hl]; rfl)
  rw [← hsplit] at ht1 ht2 ht3
  refine ⟨t, rfl, by simp, ht1, ?_, ?_⟩
  · rw [ht2]
    have : ((List.range s.numSamples).map (sampleOf s)).map (·.numSamples) = List.replicate s.numSamples 1 := by
      rw [List.map_map]
      rw [List.eq_replicate_iff]
      refine ⟨by simp, ?_⟩
      intro x hx
      obtain ⟨i, _, rfl⟩ := List.mem_map.1 hx
      rfl
    rw [this]; simp
  · intro n p
    rw [ht3, hrd, read_eq_look s hsh]
    cases hl : look s n p with
    | none => rfl
    | some v =>
      obtain ⟨l, rfl, hlen⟩ := hsh.rows hn n p v hl
      simp only [Option.map_some, Option.isSome_some, if_true]
      congr 2
      have : ((List.range s.numSamples).map (sampleOf s)).flatMap
          (fun g => ((readParam g n p).map cells).getD []) =
          (List.range s.numSamples).flatMap fun i => [rowD (.arr l) i] := by
        rw [List.flatMap_def, List.flatMap_def, List.map_map]
        congr 1
        apply List.map_congr_left
        intro i hi
        simp only [Function.comp, hrd, hl, Option.map_some, Option.getD_some]
        exact hcells i (List.mem_range.1 hi) n p _ hl
      rw [this]
      have h2 : ∀ m, m ≤ l.length → (List.range m).flatMap (fun i => [rowD (.arr l) i]) = l.take m := by
        intro m
        induction m with
        | zero => simp
        | succ m ih =>
          intro hm
          rw [List.range_succ, List.flatMap_append, ih (by omega)]
          have : m < l.length := by omega
          simp [rowD, List.getElem?_eq_getElem this, List.take_append_getElem]
      rw [h2 s.numSamples (by omega), ← hlen, List.take_length]

/-- C05 fails for array-valued parameters: the samples of a two-sample state with a
two-component parameter cannot be concatenated again. -/
theorem C05_roundtrip_counterexample :
    ∃ s : GState Nat, Reachable s ∧ s.numSamples = 2 ∧ ∃ samples, s.iterate = .ok samples ∧
      GState.fromList id (samples.map .graph) = .error .valueError :=
  ⟨_, ⟨2, _, [Op.set ['a'] ['x'] (.arr [.arr [.scalar 1, .scalar 2], .arr [.scalar 3, .scalar 4]]) false],
    rfl, rfl⟩, rfl, _, rfl, rfl⟩

/-- Non-vacuity of C05: a reachable state meeting the hypotheses. -/
example : ∃ s : GState Nat, Reachable s ∧ s.numSamples ≠ 1 ∧
    (∀ n p rows, readParam s n p = some (.arr rows) → ∀ r ∈ rows, isCell r) ∧
    readParam s ['a'] ['x'] = some (.arr [.scalar 1, .scalar 2]) := by
  refine ⟨_, ⟨2, _, [Op.set ['a'] ['x'] (.arr [.scalar 1, .scalar 2]) false], rfl, rfl⟩, by decide, ?_, rfl⟩
  intro n p rows h r hr
  rw [read_eq_look _ (reachable_wf ⟨2, _, [Op.set ['a'] ['x'] (.arr [.scalar 1, .scalar 2]) false], rfl, rfl⟩).toShape] at h
  unfold look at h
  simp only [run, step, List.foldl, GState.set, hasDot] at h
  by_cases h1 : ['a'] = n
  · subst h1
    by_cases h2 : ['x'] = p
    · subst h2
      have h3 : (Val.arr [.scalar 1, .scalar 2] : Val Nat) = .arr rows := Option.some.inj h
      cases h3
      simp at hr
      rcases hr with rfl | rfl <;> intro rows hc <;> cases hc
    · simp [Dict.has, GState.register, GState.countVar, Dict.set, GState.normalise, Dict.get?_cons, h2] at h
  · simp [Dict.has, GState.register, GState.countVar, Dict.set, GState.normalise, Dict.get?_cons, h1] at h

/-! ## C06 — exports round-trip -/

/-- C06 (dictionary): for every reachable state, `from_dict(to_dict(s), num_samples)` succeeds
and reads the same everywhere; the keys are pairwise distinct and are exactly the joined names
of the stored parameters, with their values. -/
theorem C06_dict_roundtrip (s : GState α) (hs : Reachable s) :
    (∃ t, GState.fromDict (s.toDict.map fun q => (q.1, GState.Entry.val q.2)) s.numSamples = .ok t ∧
      t.numSamples = s.numSamples ∧ ∀ n p, readParam t n p = readParam s n p) ∧
    s.toDict.keys.Nodup ∧
    ∀ key v, s.toDict.get? key = some v ↔
      ∃ n p, key = n ++ '.' :: p ∧ readParam s n p = some v := by
  have hw := reachable_wf hs
  have hsh := hw.toShape
  have hdots : ∀ t ∈ flat s, hasDot t.1 = false ∧ hasDot t.2.1 = false := by
    rintro ⟨n, p, v⟩ hm
    exact look_dotfree hsh ((mem_flat_iff s hsh n p v).1 hm)
  rw [toDict_eq s hsh]
  have hnd := keyed_nodup (flat s) (flat_nodup s hsh) hdots
  refine ⟨?_, hnd, ?_⟩
  · obtain ⟨s0, hs0⟩ := init_ok (α := α) (n := (s.numSamples : Int)) (by have := hsh.pos; omega)
    have hs0n : s0.numSamples = s.numSamples := by have := init_numSamples hs0; omega
    have hwr : Writable s0 (flat s) := by
      apply init_writable hs0 _ hdots
      rintro ⟨n, p, v⟩ hm
      rw [hs0n]
      exact ⟨v, normalise_stored s hsh ((mem_flat_iff s hsh n p v).1 hm)⟩
    obtain ⟨t, ht, hwt, hnt, hlt⟩ := fromDictLoop_flat (flat s) (flat_nodup s hsh) s0 hwr
    refine ⟨t, ?_, hnt.trans hs0n, ?_⟩
    · unfold GState.fromDict
      simp only [hs0, bind, Except.bind]; exact ht
    · intro n p
      rw [read_eq_look t hwt.toShape, read_eq_look s hsh, hlt, lookL_flat s hsh]
      cases hl : look s n p with
      | none => simp [init_look hs0]
      | some v =>
        simp only [hs0n]
        rw [normalise_stored s hsh hl]; rfl
  · intro key v
    rw [Dict.get?_iff_mem hnd]
    unfold keyed
    rw [List.mem_map]
    constructor
    · rintro ⟨⟨n, p, u⟩, hm, he⟩
      cases he
      exact ⟨n, p, rfl, by rw [read_eq_look s hsh]; exact (mem_flat_iff s hsh n p u).1 hm⟩
    · rintro ⟨n, p, rfl, hr⟩
      rw [read_eq_look s hsh] at hr
      exact ⟨(n, p, v), (mem_flat_iff s hsh n p v).2 hr, rfl⟩

theorem toTable_cols (s : GState α) (hs : Shape s) (hn : s.numSamples ≠ 1) :
    ∃ l : List (Name × Name × List (Val α)), asArr l = flat s ∧
      ∃ rows, s.toTable = .ok { cols := columns l, rows := rows } ∧
        (l = [] ∨ rows = s.numSamples) := by
  -- the array content of every stored parameter
  let un : Val α → List (Val α) := fun v => match v with | .arr l => l | _ => []
  let l := (flat s).map fun t => (t.1, t.2.1, un t.2.2)
  have hun : ∀ t ∈ flat s, t.2.2 = .arr (un t.2.2) ∧ (un t.2.2).length = s.numSamples := by
    rintro ⟨n, p, v⟩ hm
    obtain ⟨r, rfl, hr⟩ := hs.rows hn n p v ((mem_flat_iff s hs n p v).1 hm)
    exact ⟨rfl, hr⟩
  have hasl : asArr l = flat s := by
    simp only [asArr, l, List.map_map]
    conv => rhs; rw [← List.map_id (flat s)]
    apply List.map_congr_left
    rintro ⟨n, p, v⟩ hm
    have := (hun _ hm).1
    simp only [Function.comp, id]; rw [← this]
  -- the nested monadic fold is a fold over `flat`
  let g : Dict Name (List (Val α)) → Tri α → Except Err (Dict Name (List (Val α))) := fun acc t =>
    GState.addCol acc t.1 t.2.1 t.2.2
  have hfold : ∀ (st : Dict Name (Dict Name (Val α))) (acc : Dict Name (List (Val α))),
      st.foldlM (fun acc (q : Name × Dict Name (Val α)) =>
        q.2.foldlM (fun (acc : Dict Name (List (Val α))) (r : Name × Val α) =>
          GState.addCol acc q.1 r.1 r.2) acc) acc =
      (st.flatMap fun q => q.2.map fun r => (q.1, r.1, r.2)).foldlM g acc := by
    intro st
    induction st with
    | nil => intro acc; rfl
    | cons q st ih =>
      intro acc
      rw [List.flatMap_cons, List.foldlM_append, List.foldlM_cons]
      rw [List.foldlM_map]
      have : (fun acc => List.foldlM g acc (List.flatMap (fun q => List.map (fun r => (q.1, r.1, r.2)) q.2) st)) =
          fun acc => st.foldlM (fun acc (q : Name × Dict Name (Val α)) =>
        q.2.foldlM (fun (acc : Dict Name (List (Val α))) (r : Name × Val α) =>
          GState.addCol acc q.1 r.1 r.2) acc) acc := by
        funext acc; exact (ih acc).symm
      rw [this]
  have hg : ∀ (m : List (Tri α)) (acc : Dict Name (List (Val α))),
      (∀ t ∈ m, t.2.2 = .arr (un t.2.2)) →
      m.foldlM g acc = .ok ((m.map fun t => (GState.extendedName t.1 t.2.1, un t.2.2)).foldl
        (fun acc q => Dict.set acc q.1 q.2) acc) := by
    intro m
    induction m with
    | nil => intro acc _; rfl
    | cons t m ih =>
      intro acc h
      rw [List.foldlM_cons]
      have h1 := h t (by simp)
      have : g acc t = .ok (acc.set (GState.extendedName t.1 t.2.1) (un t.2.2)) := by
        simp only [g]; rw [h1]; rfl
      rw [this]
      exact ih _ (fun t ht => h t (List.mem_cons_of_mem _ ht))
  have hdots : ∀ t ∈ flat s, hasDot t.1 = false ∧ hasDot t.2.1 = false := by
    rintro ⟨n, p, v⟩ hm
    exact look_dotfree hs ((mem_flat_iff s hs n p v).1 hm)
  have hcolk : Dict.keys (columns l) = Dict.keys (keyed (flat s)) := by
    simp [columns, l, keyed, Dict.keys, List.map_map, Function.comp_def]
  have hfin : (flat s).foldlM g [] = .ok (columns l) := by
    rw [hg (flat s) [] (fun t ht => (hun t ht).1)]
    have : ((flat s).map fun t => (GState.extendedName t.1 t.2.1, un t.2.2)) = columns l := by
      simp [columns, l, List.map_map, Function.comp_def]
    rw [this, foldl_set_append]
    · rfl
    · rw [List.nil_append, hcolk]
      exact keyed_nodup _ (flat_nodup s hs) hdots
  refine ⟨l, hasl, ((Dict.values (columns l)).head?.map List.length).getD 0, ?_, ?_⟩
  · unfold GState.toTable
    have := hfold s.states []
    rw [this]
    change (do let cols ← (flat s).foldlM g []; _) = _
    rw [hfin]; rfl
  · cases hl : l with
    | nil => exact Or.inl rfl
    | cons t l' =>
      right
      have hm : t ∈ (flat s).map fun t => (t.1, t.2.1, un t.2.2) := by
        change t ∈ l; rw [hl]; simp
      obtain ⟨u, hu, rfl⟩ := List.mem_map.1 hm
      simp only [columns, List.map_cons, Dict.values, List.head?_cons, Option.map_some, Option.getD_some]
      exact (hun u hu).2

/-- C06 (table): for every reachable state with several samples and at least one parameter,
`from_table(to_table(s))` succeeds and reads the same everywhere. (For one sample the scalar
column handling is astropy's, outside the model.) -/
theorem C06_table_roundtrip (s : GState α) (hs : Reachable s) (hn : s.numSamples ≠ 1)
    (hne : ∃ n p, (readParam s n p).isSome = true) :
    ∃ tbl t, s.toTable = .ok tbl ∧ tbl.rows = s.numSamples ∧ GState.fromTable tbl = .ok t ∧
      t.numSamples = s.numSamples ∧ ∀ n p, readParam t n p = readParam s n p := by
  have hw := reachable_wf hs
  have hsh := hw.toShape
  obtain ⟨l, hl, rows, htab, hrow⟩ := toTable_cols s hsh hn
  have hrows : rows = s.numSamples := by
    rcases hrow with h | h
    · exfalso
      obtain ⟨n, p, hr⟩ := hne
      rw [read_eq_look s hsh, Option.isSome_iff_exists] at hr
      obtain ⟨v, hv⟩ := hr
      have := (mem_flat_iff s hsh n p v).2 hv
      rw [← hl, h] at this; simp [asArr] at this
    · exact h
  obtain ⟨s0, hs0⟩ := init_ok (α := α) (n := (rows : Int)) (by have := hsh.pos; omega)
  have hs0n : s0.numSamples = s.numSamples := by have := init_numSamples hs0; omega
  have hwr : Writable s0 (asArr l) := by
    rw [hl]
    apply init_writable hs0
    · rintro ⟨n, p, v⟩ hm
      exact look_dotfree hsh ((mem_flat_iff s hsh n p v).1 hm)
    · rintro ⟨n, p, v⟩ hm
      rw [hs0n]
      exact ⟨v, normalise_stored s hsh ((mem_flat_iff s hsh n p v).1 hm)⟩
  obtain ⟨t, ht, hwt, hnt, hlt⟩ := fromTableLoop_flat rows (by omega) l
    (by rw [hl]; exact flat_nodup s hsh) s0 hwr
  refine ⟨_, t, htab, hrows, ?_, hnt.trans hs0n, ?_⟩
  · unfold GState.fromTable
    simp only [hs0, bind, Except.bind]; exact ht
  · intro n p
    rw [read_eq_look t hwt.toShape, read_eq_look s hsh, hlt, hl, lookL_flat s hsh]
    cases h : look s n p with
    | none => simp [init_look hs0]
    | some v =>
      simp only [hs0n]
      rw [normalise_stored s hsh h]; rfl

/-- Non-vacuity of C06. -/
example : ∃ s : GState Nat, Reachable s ∧ s.numSamples ≠ 1 ∧ (∃ n p, (readParam s n p).isSome = true) :=
  ⟨_, ⟨2, _, [Op.set ['a'] ['x'] (.scalar 4) false], rfl, rfl⟩, by decide, ['a'], ['x'], rfl⟩

/-! ## C60 — an extracted sample is an ordinary state -/

/-- C60 fails: after extracting a single sample, setting a parameter of an existing node raises
`KeyError` (the extracted state has no `fixed_vars` entry for it), while the same call on the
original state succeeds. -/
theorem C60_extracted_set_counterexample :
    ∃ (s t : GState Nat), Reachable s ∧ s.extractSample 0 = .ok t ∧
      (t.set ['a'] ['y'] (.scalar 3)).2 = some .keyError ∧ (s.set ['a'] ['y'] (.scalar 3)).2 = none :=
  ⟨_, _, ⟨2, _, [Op.set ['a'] ['x'] (.scalar 1) false], rfl, rfl⟩, rfl, rfl, rfl⟩

/-- C60, partial: `copy` yields a state that behaves identically in every later history. -/
theorem C60_copy_partial (s : GState α) : s.copy = s := by
  unfold GState.copy
  have h : ∀ (ν : Type) (d : Dict Name ν), (d.map fun (k, v) => (k, v)) = d := by
    intro ν d; simp
  cases s
  simp

/-! ## C10 — transpose -/

/-- C10. `transpose_dict_of_list(d, n)` succeeds exactly when `n ≥ 1` and every list has `n`
entries, and then gives `n` dictionaries with `result[i][k] == d[k][i]`. -/
theorem C10_transpose {κ ν : Type} [DecidableEq κ] (d : Dict κ (List ν)) (hd : d.keys.Nodup) (n : Int) :
    (transposeDictOfList d n = .error .valueError ↔ n < 1 ∨ ∃ q ∈ d, (q.2.length : Int) ≠ n) ∧
    (1 ≤ n → (∀ q ∈ d, (q.2.length : Int) = n) → ∃ out, transposeDictOfList d n = .ok out ∧
      (out.length : Int) = n ∧ ∀ i (hi : i < out.length) k,
        (out[i]).get? k = (d.get? k).bind fun values => values[i]?) := by
  have key : ∀ (l : List (κ × List ν)) (out : List (Dict κ ν)), (Dict.keys l).Nodup →
      (out.length : Int) = n → (∀ q ∈ l, (q.2.length : Int) = n) →
      ∃ res, transposeLoop n l out = .ok res ∧ res.length = out.length ∧
        ∀ i (hi : i < res.length) (hi' : i < out.length) k,
          Dict.get? res[i] k = match Dict.get? l k with
            | some values => values[i]?
            | none => Dict.get? out[i] k := by
    intro l
    induction l with
    | nil => intro out _ _ _; exact ⟨out, rfl, rfl, fun i hi hi' k => rfl⟩
    | cons q l ih =>
      obtain ⟨key, values⟩ := q
      intro out hl ho hq
      simp only [Dict.keys_cons, List.nodup_cons] at hl
      have h1 : (values.length : Int) = n := hq (key, values) (by simp)
      have hlen : (transposeAdd key values out).length = out.length := by
        simp only [transposeAdd, List.length_zipWith]; omega
      obtain ⟨res, hr, hrl, hrg⟩ := ih (transposeAdd key values out) hl.2 (by rw [hlen]; exact ho)
        (fun q hq' => hq q (List.mem_cons_of_mem _ hq'))
      refine ⟨res, ?_, hrl.trans hlen, ?_⟩
      · unfold transposeLoop; simp only [h1, ne_eq, not_true_eq_false, if_false]; exact hr
      · intro i hi hi' k
        rw [hrg i hi (by omega) k]
        have hiv : i < values.length := by omega
        have e : (transposeAdd key values out)[i]'(by omega) = Dict.set out[i] key values[i] := by
          simp [transposeAdd]
        rw [e, Dict.get?_set, Dict.get?_cons]
        by_cases hk : key = k
        · subst hk
          have : Dict.get? l key = none := by rw [Dict.get?_eq_none_iff]; exact hl.1
          simp [this, List.getElem?_eq_getElem hiv]
        · simp [hk]
  have kerr : ∀ (l : List (κ × List ν)) (out : List (Dict κ ν)),
      (∃ q ∈ l, (q.2.length : Int) ≠ n) → transposeLoop n l out = .error .valueError := by
    intro l
    induction l with
    | nil => rintro out ⟨q, hq, _⟩; simp at hq
    | cons q l ih =>
      obtain ⟨key, values⟩ := q
      intro out h
      unfold transposeLoop
      by_cases h1 : (values.length : Int) = n
      · simp only [h1, ne_eq, not_true_eq_false, if_false]
        apply ih
        obtain ⟨q, hq, hb⟩ := h
        rcases List.mem_cons.1 hq with rfl | hq
        · exact absurd h1 hb
        · exact ⟨q, hq, hb⟩
      · simp [h1]
  have main : 1 ≤ n → (∀ q ∈ d, (q.2.length : Int) = n) → ∃ out, transposeDictOfList d n = .ok out ∧
      (out.length : Int) = n ∧ ∀ i (hi : i < out.length) k,
        (out[i]).get? k = (d.get? k).bind fun values => values[i]? := by
    intro hn hq
    obtain ⟨res, h1, h2, h3⟩ := key d (List.replicate n.toNat []) hd (by simp; omega) hq
    refine ⟨res, ?_, ?_, ?_⟩
    · unfold transposeDictOfList; rw [if_neg (by omega)]; exact h1
    · rw [h2]; simp; omega
    · intro i hi k
      rw [h3 i hi (by simpa [h2] using hi) k]
      cases d.get? k <;> simp
  refine ⟨?_, main⟩
  constructor
  · intro h
    by_cases hn : n < 1
    · exact Or.inl hn
    · right
      by_cases hq : ∀ q ∈ d, (q.2.length : Int) = n
      · obtain ⟨out, ho, _⟩ := main (by omega) hq
        rw [ho] at h; cases h
      · simp only [Classical.not_forall] at hq
        obtain ⟨q, hq1, hq2⟩ := hq
        exact ⟨q, hq1, hq2⟩
  · rintro (h | h)
    · unfold transposeDictOfList; rw [if_pos h]
    · unfold transposeDictOfList
      split
      · rfl
      · exact kerr d _ h

/-- Non-vacuity of C10. -/
example : transposeDictOfList ([('a', [1, 2]), ('b', [3, 4])] : Dict Char (List Nat)) 2 =
    .ok [[('a', 1), ('b', 3)], [('a', 2), ('b', 4)]] := rfl

end LCL.GraphProps
