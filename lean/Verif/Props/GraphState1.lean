import Verif.Lemmas.GraphState2

/-!
# Properties C01–C04, C08, C09: `GraphState` as a map over histories
-/

namespace LCL.GraphProps
open LCL LCL.GraphSpec LCL.GraphLemmas
variable {α : Type}

/-! ## C01 — last-writer-wins map -/

/-- C01 (one call). On every reachable state: a `set` that returns normally on a parameter that
is not fixed makes the (expanded) value readable, and whatever the outcome, no other parameter
reads differently. It raises exactly for dotted names and for values that cannot be stored in
a parameter that is not fixed. -/
theorem C01_set_step (s : GState α) (hs : Reachable s) (node param : Name) (v : Val α) (fixed : Bool) :
    ((s.set node param v fixed).2 = none → ¬ isFixed s node param →
      ∃ w, storedAs s.numSamples v w ∧ readParam (s.set node param v fixed).1 node param = some w) ∧
    (∀ n p, (n, p) ≠ (node, param) →
      readParam (s.set node param v fixed).1 n p = readParam s n p) ∧
    ((s.set node param v fixed).2 ≠ none →
      readParam (s.set node param v fixed).1 node param = readParam s node param) ∧
    ((s.set node param v fixed).2 = none ↔
      '.' ∉ node ∧ '.' ∉ param ∧ (isFixed s node param ∨ ∃ w, storedAs s.numSamples v w)) := by
  have hw := reachable_wf hs
  have he := set_error_iff s hw node param v fixed
  obtain ⟨hw', _, heff⟩ := set_effect s hw node param v fixed
  have hiff : (s.set node param v fixed).2 = none ↔
      '.' ∉ node ∧ '.' ∉ param ∧ (isFixed s node param ∨ ∃ w, storedAs s.numSamples v w) := by
    rw [he, isFixed_iff, Bool.or_eq_false_iff, hasDot_false_iff, hasDot_false_iff]
    simp only [normalise_ok_iff, and_assoc]
  refine ⟨?_, ?_, ?_, hiff⟩
  · intro hok hnf
    rw [isFixed_iff] at hnf
    rcases heff with ⟨hc, _⟩ | ⟨_, _, w, hwn, hl, _⟩
    · exfalso
      have := he.1 hok
      rcases hc with h | h | ⟨e, h⟩
      · rw [this.1] at h; cases h
      · exact hnf h
      · rcases this.2 with h2 | ⟨w, h2⟩
        · exact hnf h2
        · rw [h2] at h; cases h
    · exact ⟨w, (normalise_ok_iff _ _ _).1 hwn, by rw [read_eq_look _ hw'.toShape, hl]; simp⟩
  · intro n p hne
    rw [read_eq_look _ hw'.toShape, read_eq_look _ hw.toShape]
    rcases heff with ⟨_, hl, _⟩ | ⟨_, _, w, _, hl, _⟩
    · exact hl n p
    · rw [hl]
      have : ¬ (node = n ∧ param = p) := by rintro ⟨rfl, rfl⟩; exact hne rfl
      simp [this]
  · intro hbad
    rw [read_eq_look _ hw'.toShape, read_eq_look _ hw.toShape]
    rcases heff with ⟨_, hl, _⟩ | ⟨h1, h2, w, h3, hl, _⟩
    · exact hl _ _
    · exact absurd (he.2 ⟨h1, Or.inr ⟨w, h3⟩⟩) hbad

/-- C01 (histories). For every history of `set` calls (raising or not) on a fresh state, the
values read are those of the abstract map after the same writes. -/
theorem C01_set_history (n : Int) (s0 : GState α) (h0 : GState.init n = .ok s0)
    (writes : List (Name × Name × Val α × Bool)) :
    ∃ a : AMap α, ARun n.toNat (fun _ _ => none) writes a ∧
      ∀ node param,
        readParam (run s0 (writes.map fun w => Op.set w.1 w.2.1 w.2.2.1 w.2.2.2)) node param =
          (a node param).map (·.1) := by
  have hn : s0.numSamples = n.toNat := by have := init_numSamples h0; omega
  have key : ∀ (writes : List (Name × Name × Val α × Bool)) (s : GState α) (a : AMap α), WF s →
      s.numSamples = n.toNat →
      (∀ x y, look s x y = (a x y).map (·.1)) →
      (∀ x y, y ∈ fixedOf s x ↔ ∃ w, a x y = some (w, true)) →
      ∃ b : AMap α, ARun n.toNat a writes b ∧ ∀ x y,
        readParam (run s (writes.map fun w => Op.set w.1 w.2.1 w.2.2.1 w.2.2.2)) x y = (b x y).map (·.1) := by
    intro writes
    induction writes with
    | nil =>
      intro s a hw _ h1 _
      exact ⟨a, .nil a, fun x y => by simp [run, read_eq_look _ hw.toShape, h1]⟩
    | cons w rest ih =>
      obtain ⟨node, param, v, fx⟩ := w
      intro s a hw hns h1 h2
      obtain ⟨hw', hns', heff⟩ := set_effect s hw node param v fx
      rcases heff with ⟨hc, hl, hf⟩ | ⟨hd, hnf, w, hwn, hl, hf⟩
      · obtain ⟨b, hb, hr⟩ := ih (s.set node param v fx).1 a hw' (hns'.trans hns)
          (fun x y => by rw [hl, h1]) (fun x y => by rw [hf, h2])
        refine ⟨b, .cons (b := a) (Or.inl ⟨?_, rfl⟩) hb, hr⟩
        rcases hc with hc | hc | ⟨e, hc⟩
        · rw [Bool.or_eq_true, hasDot_iff, hasDot_iff] at hc
          rcases hc with hc | hc
          · exact Or.inl hc
          · exact Or.inr (Or.inl hc)
        · exact Or.inr (Or.inr (Or.inl ((h2 _ _).1 hc)))
        · refine Or.inr (Or.inr (Or.inr ?_))
          rw [hns] at hc
          exact normalise_error hc
      · have hd2 := Bool.or_eq_false_iff.1 hd
        let b : AMap α := fun x y => if x = node ∧ y = param then some (w, fx) else a x y
        obtain ⟨c, hc, hr⟩ := ih (s.set node param v fx).1 b hw' (hns'.trans hns)
          (fun x y => by
            rw [hl]; simp only [b]
            by_cases e : node = x ∧ param = y
            · obtain ⟨rfl, rfl⟩ := e; simp
            · have : ¬ (x = node ∧ y = param) := by rintro ⟨rfl, rfl⟩; exact e ⟨rfl, rfl⟩
              simp only [e, this, if_false]; exact h1 x y)
          (fun x y => by
            rw [hf]; simp only [b]
            by_cases e : x = node ∧ y = param
            · obtain ⟨rfl, rfl⟩ := e
              cases fx
              · simp [hnf]
              · simp
            · simp only [e, if_false]
              rw [← h2]
              split
              · rename_i e2; obtain ⟨_, rfl⟩ := e2
                have : ¬ y = param := fun h => e ⟨rfl, h⟩
                simp [this]
              · rfl)
        refine ⟨c, .cons (b := b) (Or.inr ⟨?_, ?_, ?_, w, ?_, ?_, ?_⟩) hc, hr⟩
        · exact (hasDot_false_iff _).1 hd2.1
        · exact (hasDot_false_iff _).1 hd2.2
        · rw [← h2]; exact hnf
        · rw [← hns]; exact (normalise_ok_iff _ _ _).1 hwn
        · simp [b]
        · intro n' p' hne
          have : ¬ (n' = node ∧ p' = param) := by rintro ⟨rfl, rfl⟩; exact hne rfl
          simp [b, this]
  refine key writes s0 _ (init_wf h0) hn ?_ ?_
  · intro x y
    unfold GState.init at h0
    split at h0
    · cases h0
    · cases h0; rfl
  · intro x y
    unfold GState.init at h0
    split at h0
    · cases h0
    · cases h0; simp [fixedOf]

/-- The abstract history has exactly one outcome, so `C01_set_history` determines all reads. -/
theorem C01_spec_deterministic (n : Nat) (a b c : AMap α) (writes : List (Name × Name × Val α × Bool))
    (h1 : ARun n a writes b) (h2 : ARun n a writes c) : b = c := by
  have det : ∀ (v w w' : Val α), storedAs n v w → storedAs n v w' → w = w' := by
    intro v w w' h h'
    rw [← normalise_ok_iff] at h h'
    rw [h] at h'; cases h'; rfl
  induction h1 with
  | nil a => cases h2; rfl
  | cons hw _ ih =>
    cases h2 with
    | cons hw2 hr =>
      apply ih
      have : ∀ {a b b' : AMap α} {node param v fixed}, AWrite n a node param v fixed b →
          AWrite n a node param v fixed b' → b' = b := by
        intro a b b' node param v fixed h h'
        rcases h with ⟨hc, rfl⟩ | ⟨h1, h2, h3, w, h4, h5, h6⟩
        · rcases h' with ⟨_, rfl⟩ | ⟨h1, h2, h3, w, h4, _⟩
          · rfl
          · exact (hc.elim h1 fun h => h.elim h2 fun h => h.elim h3 fun h => h ⟨w, h4⟩).elim
        · rcases h' with ⟨hc, rfl⟩ | ⟨_, _, _, w', h4', h5', h6'⟩
          · exact (hc.elim h1 fun h => h.elim h2 fun h => h.elim h3 fun h => h ⟨w, h4⟩).elim
          · funext x y
            by_cases e : (x, y) = (node, param)
            · cases e; rw [h5, h5', det v w w' h4 h4']
            · rw [h6 x y e, h6' x y e]
      rw [← this hw hw2]; exact hr

/-- Non-vacuity of C01: a three-sample state, a scalar write, an overwrite, a bad length. -/
example : readParam (run { numSamples := 3, numParams := 0, states := [], fixed := [] }
    [Op.set "a".toList "x".toList (.scalar 1) false,
     Op.set "a".toList "y".toList (.arr [.scalar 1, .scalar 2, .scalar 3]) false,
     Op.set "a".toList "x".toList (.scalar 7) false,
     Op.set "a".toList "y".toList (.arr [.scalar 1]) false]) "a".toList "x".toList
    = some (.arr [.scalar 7, .scalar 7, .scalar 7]) := by rfl

/-! ## C02 — fixed parameters never change -/

/-- C02. After a normal return of `set(..., fixed=True)`, no later history changes the value. -/
theorem C02_fixed_set (s : GState α) (hs : Reachable s) (node param : Name) (v : Val α)
    (hok : (s.set node param v true).2 = none) (later : List (Op α)) :
    readParam (run (s.set node param v true).1 later) node param =
      readParam (s.set node param v true).1 node param ∧
    (readParam (s.set node param v true).1 node param).isSome = true := by
  have hw := reachable_wf hs
  obtain ⟨hw', _, heff⟩ := set_effect s hw node param v true
  have hfx : param ∈ fixedOf (s.set node param v true).1 node := by
    rcases heff with ⟨hc, _, hf⟩ | ⟨_, _, w, _, _, hf⟩
    · have := (set_error_iff s hw node param v true).1 hok
      rw [hf]
      rcases this.2 with h | ⟨w, h⟩
      · exact h
      · rcases hc with h2 | h2 | ⟨e, h2⟩
        · rw [this.1] at h2; cases h2
        · exact h2
        · rw [h] at h2; cases h2
    · rw [hf]; simp
  have hst := run_stays later _ hw' node param hfx
  have hwr := (run_wf later _ hw').1
  rw [read_eq_look _ hwr.toShape, read_eq_look _ hw'.toShape]
  refine ⟨hst.2, ?_⟩
  obtain ⟨u, hu⟩ := hw'.fsub _ _ hfx
  simp [hu]

/-- C02 for any parameter already marked fixed in a reachable state. -/
theorem C02_fixed_stays (s : GState α) (hs : Reachable s) (node param : Name)
    (hf : isFixed s node param) (later : List (Op α)) :
    readParam (run s later) node param = readParam s node param ∧ isFixed (run s later) node param := by
  have hw := reachable_wf hs
  rw [isFixed_iff] at hf ⊢
  have hst := run_stays later s hw node param hf
  rw [read_eq_look _ (run_wf later s hw).1.toShape, read_eq_look _ hw.toShape]
  exact ⟨hst.2, hst.1⟩

/-- C02 for `update(inputs, all_fixed=True)`: every parameter of the inputs is frozen. -/
theorem C02_fixed_update (s : GState α) (hs : Reachable s) (d : Dict Name (Dict Name (Val α)))
    (hk : d.keys.Nodup) (hv : ∀ q ∈ d, q.2.keys.Nodup)
    (hok : (s.update (.nested d) true).2 = none) (node param : Name) (vars : Dict Name (Val α)) (v : Val α)
    (h1 : d.get? node = some vars) (h2 : vars.get? param = some v) (later : List (Op α)) :
    readParam (run (s.update (.nested d) true).1 later) node param =
      readParam (s.update (.nested d) true).1 node param ∧
    (readParam (s.update (.nested d) true).1 node param).isSome = true := by
  have hw := reachable_wf hs
  have hw' := (update_wf s hw (.nested d) true).1
  have hfx : param ∈ fixedOf (s.update (.nested d) true).1 node := by
    have := (setNested_effect d s hw true hk hv hok node param).2.2
    exact this.2 (Or.inr ⟨rfl, by simp [look2, h1, h2]⟩)
  have hst := run_stays later _ hw' node param hfx
  rw [read_eq_look _ (run_wf later _ hw').1.toShape, read_eq_look _ hw'.toShape]
  refine ⟨hst.2, ?_⟩
  obtain ⟨u, hu⟩ := hw'.fsub _ _ hfx
  simp [hu]

/-- Non-vacuity of C02. -/
example :
    let s : GState Nat := { numSamples := 2, numParams := 0, states := [], fixed := [] }
    (s.set "a".toList "x".toList (.scalar 5) true).2 = none ∧
    readParam (run (s.set "a".toList "x".toList (.scalar 5) true).1
      [Op.set "a".toList "x".toList (.scalar 9) false,
       Op.update (.nested [("a".toList, [("x".toList, .scalar 3), ("y".toList, .scalar 4)])]) true])
      "a".toList "x".toList = some (.arr [.scalar 5, .scalar 5]) := ⟨rfl, rfl⟩

/-! ## C03 — `len(state)` -/

/-- C03, partial: for histories in which every call returns normally, `len` is the number of
distinct stored parameters. Missing: histories with a raising `set`/`update` — false there,
see `C03_len_counterexample`. -/
theorem C03_len_partial (n : Int) (s0 : GState α) (h0 : GState.init n = .ok s0) (ops : List (Op α))
    (hok : AllSucceed s0 ops) :
    (run s0 ops).len = (pairs (run s0 ops)).length ∧ (pairs (run s0 ops)).Nodup ∧
    ∀ node param, (node, param) ∈ pairs (run s0 ops) ↔ (readParam (run s0 ops) node param).isSome = true := by
  have hw := (run_wf ops s0 (init_wf h0)).1
  refine ⟨?_, pairs_nodup _ hw.toShape, ?_⟩
  · apply run_counted ops s0 (init_wf h0) _ hok
    unfold GState.init at h0
    split at h0
    · cases h0
    · cases h0; rfl
  · intro node param
    rw [mem_pairs_iff _ hw.toShape, read_eq_look _ hw.toShape, Option.isSome_iff_exists]

/-- C03 fails after a raising call: a length mismatch on a new parameter is counted although
nothing is stored. -/
theorem C03_len_counterexample :
    ∃ (s0 : GState Nat) (ops : List (Op Nat)), GState.init 2 = .ok s0 ∧
      (run s0 ops).len ≠ (pairs (run s0 ops)).length :=
  ⟨_, [Op.set ['a'] ['x'] (.arr [.scalar 1]) false], rfl, by decide⟩

/-- Non-vacuity of C03. -/
example : AllSucceed ({ numSamples := 2, numParams := 0, states := [], fixed := [] } : GState Nat)
    [Op.set ['a'] ['x'] (.scalar 1) true, Op.update (.nested [(['a'], [(['x'], .scalar 2), (['y'], .scalar 3)])]) false] :=
  ⟨rfl, rfl, trivial⟩

/-! ## C04 — every column has `num_samples` rows -/

/-- C04. In every reachable state with more than one sample every stored value is an array of
`num_samples` rows; extracting any valid sample succeeds and reads row `i` of every parameter
(the value itself for one sample), and so does reading the state of any node; an invalid index
raises `ValueError`. -/
theorem C04_rows (s : GState α) (hs : Reachable s) :
    (s.numSamples ≠ 1 → ∀ node param v, readParam s node param = some v →
      ∃ rows, v = .arr rows ∧ rows.length = s.numSamples) ∧
    (∀ i : Int, 0 ≤ i → i < s.numSamples → ∃ t, s.extractSample i = .ok t ∧ t.numSamples = 1 ∧
      ∀ node param, readParam t node param =
        if s.numSamples = 1 then readParam s node param
        else (readParam s node param).bind fun v => rowAt v i.toNat) ∧
    (∀ i : Int, i < 0 ∨ s.numSamples ≤ i → s.extractSample i = .error .valueError) ∧
    (∀ node (i : Int), 0 ≤ i → i < s.numSamples → s.states.has node = true →
      ∃ d, s.getNodeState node i = .ok d ∧ ∀ param, d.get? param =
        if s.numSamples = 1 then readParam s node param
        else (readParam s node param).bind fun v => rowAt v i.toNat) := by
  have hw := reachable_wf hs
  have hrow : ∀ i : Nat, i < s.numSamples → ∀ node param,
      ((look s node param).map fun v => if s.numSamples = 1 then v else rowD v i) =
        if s.numSamples = 1 then readParam s node param
        else (readParam s node param).bind fun v => rowAt v i := by
    intro i hi node param
    rw [read_eq_look _ hw.toShape]
    by_cases h1 : s.numSamples = 1
    · simp [h1]
    · simp only [h1, if_false]
      cases hl : look s node param with
      | none => rfl
      | some v =>
        obtain ⟨l, rfl, hlen⟩ := hw.rows h1 _ _ _ hl
        have : i < l.length := by omega
        simp [rowD, rowAt, List.getElem?_eq_getElem this]
  refine ⟨?_, ?_, ?_, ?_⟩
  · intro h1 node param v hv
    rw [read_eq_look _ hw.toShape] at hv
    exact hw.rows h1 node param v hv
  · intro i h1 h2
    obtain ⟨k, rfl⟩ := Int.eq_ofNat_of_zero_le h1
    refine ⟨_, extractSample_ok s hw.toShape k (by omega), rfl, ?_⟩
    intro node param
    rw [read_eq_look _ (sampleOf_shape s hw.toShape k), look_sampleOf]
    exact hrow k (by omega) node param
  · intro i h
    unfold GState.extractSample
    have : i < 0 ∨ i ≥ s.numSamples := by omega
    rw [if_pos this]
  · intro node i h1 h2 hn
    obtain ⟨k, rfl⟩ := Int.eq_ofNat_of_zero_le h1
    obtain ⟨d, hd⟩ := Option.isSome_iff_exists.1 hn
    refine ⟨_, getNodeState_ok s hw.toShape node d hd k (by omega), ?_⟩
    intro param
    have := hrow k (by omega) node param
    simp only [Int.toNat_natCast]
    rw [← this]
    have e := get?_map_val (fun v => if s.numSamples = 1 then v else rowD v k) d param
    rw [e]; simp [look, hd]

/-- Non-vacuity of C04: a reachable two-sample state holding data. -/
example : ∃ s : GState Nat, Reachable s ∧ s.numSamples = 2 ∧
    readParam s ['a'] ['x'] = some (.arr [.scalar 1, .scalar 2]) :=
  ⟨_, ⟨2, _, [Op.set ['a'] ['x'] (.arr [.scalar 1, .scalar 2]) false], rfl, rfl⟩, rfl, rfl⟩

/-! ## C08 — membership and lookup -/

/-- C08 (membership side, full): `key in state` is true exactly when `state[key]` returns a
stored node dictionary or value. -/
theorem C08_contains_iff_lookup (s : GState α) (key : Name) :
    s.contains key = .ok (some true) ↔
      (∃ d, s.getItem key = .ok (.node d)) ∨ (∃ v, s.getItem key = .ok (.value v)) := by
  unfold GState.contains GState.getItem
  unfold Dict.has
  cases h : s.states.get? key with
  | some d => simp
  | none =>
    simp only [Option.isSome_none, Bool.false_eq_true, if_false]
    by_cases hd : hasDot key = true
    · simp only [hd, if_true]
      split
      · rename_i a b hab
        cases h2 : s.states.get? a with
        | none => simp
        | some d => simp only; cases h3 : Dict.get? d b <;> simp
      · simp
    · simp only [hd, Bool.false_eq_true, if_false]
      split
      · rename_i n d hst
        cases h3 : Dict.get? d key <;> simp
      · simp

/-- C08 (lookup side), partial: when the state does not hold exactly one node, or the key has a
dot, a key that is not present raises `KeyError`. Missing: with exactly one node stored, an
absent short key returns `None` instead (`C08_lookup_counterexample`). -/
theorem C08_lookup_raises_partial (s : GState α) (key : Name)
    (hshape : s.states.length ≠ 1 ∨ '.' ∈ key) (h : s.contains key ≠ .ok (some true)) :
    s.getItem key = .error .keyError := by
  unfold GState.contains at h
  unfold GState.getItem
  unfold Dict.has at h
  cases h0 : s.states.get? key with
  | some d => simp [h0] at h
  | none =>
    simp only [h0, Option.isSome_none, Bool.false_eq_true, if_false] at h ⊢
    by_cases hd : hasDot key = true
    · simp only [hd, if_true] at h ⊢
      split
      · rename_i a b hab
        rw [hab] at h
        cases h2 : s.states.get? a with
        | none => simp
        | some d =>
          simp only [h2] at h ⊢
          cases h3 : Dict.get? d b
          · rfl
          · simp [h3] at h
      · rfl
    · simp only [hd, Bool.false_eq_true, if_false]
      split
      · rename_i n d hst
        rcases hshape with h1 | h1
        · simp [hst] at h1
        · exact absurd ((hasDot_iff _).2 h1) hd
      · rfl

/-- C08 fails for a short key missing from the only stored node: no `KeyError`, `None` is
returned; and `in` raises `KeyError` (instead of being `False`) for a key with two dots. -/
theorem C08_lookup_counterexample :
    (∃ s : GState Nat, Reachable s ∧ s.contains ['z'] = .ok none ∧ s.getItem ['z'] = .ok .pyNone) ∧
    (∃ s : GState Nat, Reachable s ∧ s.contains ['a', '.', 'b', '.', 'c'] = .error .keyError) :=
  ⟨⟨_, ⟨1, _, [Op.set ['a'] ['x'] (.scalar 1) false], rfl, rfl⟩, rfl, rfl⟩,
   ⟨_, ⟨1, _, [Op.set ['a'] ['x'] (.scalar 1) false], rfl, rfl⟩, rfl⟩⟩

/-- C08 (unambiguity): stored names never contain a dot, so a key `a.b` names at most one
parameter. -/
theorem C08_names_unambiguous (s : GState α) (hs : Reachable s) (n p n' p' : Name)
    (h1 : (n, p) ∈ pairs s) (h2 : (n', p') ∈ pairs s) (he : n ++ '.' :: p = n' ++ '.' :: p') :
    n = n' ∧ p = p' := by
  have hw := reachable_wf hs
  obtain ⟨v, hv⟩ := (mem_pairs_iff s hw.toShape n p).1 h1
  obtain ⟨v', hv'⟩ := (mem_pairs_iff s hw.toShape n' p').1 h2
  have d1 := look_dotfree hw.toShape hv
  have d2 := look_dotfree hw.toShape hv'
  have := splitDot_join d1.1 d1.2
  rw [he, splitDot_join d2.1 d2.2] at this
  simp only [List.cons.injEq, and_true] at this
  exact ⟨this.1.symm, this.2.symm⟩

/-! ## C09 — `update` -/

/-- C09. A normally returning `update` with a nested dictionary: every parameter that is not
fixed and appears in the inputs now reads its (expanded) value; every other parameter is
unchanged. -/
theorem C09_update_merges (s : GState α) (hs : Reachable s) (d : Dict Name (Dict Name (Val α)))
    (hk : d.keys.Nodup) (hv : ∀ q ∈ d, q.2.keys.Nodup) (fixed : Bool)
    (hok : (s.update (.nested d) fixed).2 = none) :
    (∀ node vars param v, d.get? node = some vars → vars.get? param = some v → ¬ isFixed s node param →
      ∃ w, storedAs s.numSamples v w ∧ readParam (s.update (.nested d) fixed).1 node param = some w) ∧
    (∀ node param, (isFixed s node param ∨ (d.get? node).bind (·.get? param) = none) →
      readParam (s.update (.nested d) fixed).1 node param = readParam s node param) := by
  have hw := reachable_wf hs
  have hw' := (update_wf s hw (.nested d) fixed).1
  have heff := setNested_effect d s hw fixed hk hv hok
  constructor
  · intro node vars param v h1 h2 hnf
    rw [isFixed_iff] at hnf
    obtain ⟨e1, e2, _⟩ := heff node param
    have hl : look2 d node param = some v := by simp [look2, h1, h2]
    obtain ⟨w, hwn⟩ := e2 v hl hnf
    refine ⟨w, (normalise_ok_iff _ _ _).1 hwn, ?_⟩
    rw [read_eq_look _ hw'.toShape]
    change look (s.setNested fixed d).1 node param = _
    rw [e1]; simp [hnf, hl, hwn, Except.toOption]
  · intro node param h
    rw [isFixed_iff] at h
    obtain ⟨e1, _, _⟩ := heff node param
    rw [read_eq_look _ hw'.toShape, read_eq_look _ hw.toShape]
    change look (s.setNested fixed d).1 node param = _
    rw [e1]
    rcases h with h | h
    · simp [h]
    · have : look2 d node param = none := h
      simp [this]

/-- C09 with a `GraphState` argument: a different number of samples (other than one) raises and
changes nothing; otherwise it behaves like the nested dictionary of its contents. -/
theorem C09_update_graph (s g : GState α) (fixed : Bool) :
    (g.numSamples ≠ s.numSamples ∧ g.numSamples ≠ 1 →
      s.update (.graph g) fixed = (s, some .valueError)) ∧
    (g.numSamples = s.numSamples ∨ g.numSamples = 1 →
      s.update (.graph g) fixed = s.update (.nested g.states) fixed) := by
  unfold GState.update
  constructor
  · rintro ⟨h1, h2⟩
    have : s.numSamples ≠ g.numSamples := fun e => h1 e.symm
    simp [this, h2]
  · intro h
    have : ¬ (s.numSamples ≠ g.numSamples ∧ g.numSamples ≠ 1) := by
      rintro ⟨h1, h2⟩
      rcases h with h | h
      · exact h1 h.symm
      · exact h2 h
    simp [this]

/-- Merging a reachable single-sample or equal-sample state (whose dictionaries have distinct
keys, as every reachable state's do) succeeds unless a stored one-sample array has the wrong
length; with equal sample counts it always succeeds. -/
theorem C09_update_same_size_succeeds (s g : GState α) (hs : Reachable s) (hg : Reachable g)
    (hn : g.numSamples = s.numSamples) (fixed : Bool) : (s.update (.graph g) fixed).2 = none := by
  have hw := reachable_wf hs
  have hwg := reachable_wf hg
  rw [(C09_update_graph s g fixed).2 (Or.inl hn)]
  change (s.setNested fixed g.states).2 = none
  have hvals : ∀ q ∈ g.states, hasDot q.1 = false ∧ ∀ r ∈ q.2, hasDot r.1 = false ∧
      ∃ w, GState.normalise s.numSamples r.2 = .ok w := by
    rintro ⟨n, d⟩ hm
    have hd := Dict.get?_of_mem hwg.nodes hm
    refine ⟨hwg.dotN n (List.mem_map.2 ⟨(n, d), hm, rfl⟩), ?_⟩
    rintro ⟨p, v⟩ hr
    have hp := Dict.get?_of_mem (hwg.vars n d hd) hr
    refine ⟨hwg.dotV n d hd p (List.mem_map.2 ⟨(p, v), hr, rfl⟩), ?_⟩
    by_cases h1 : g.numSamples = 1
    · rw [← hn]; exact ⟨v, by simp [GState.normalise, h1]⟩
    · obtain ⟨l, rfl, hl⟩ := hwg.rows h1 n p v (by simp [look, hd, hp])
      rw [← hn]
      exact ⟨.arr l, by simp [GState.normalise, h1, hl]⟩
  have inner : ∀ (vars : List (Name × Val α)) (s' : GState α) (n : Name), WF s' →
      s'.numSamples = s.numSamples → hasDot n = false →
      (∀ r ∈ vars, hasDot r.1 = false ∧ ∃ w, GState.normalise s.numSamples r.2 = .ok w) →
      (s'.setAll n fixed vars).2 = none := by
    intro vars
    induction vars with
    | nil => intros; rfl
    | cons r rest ih =>
      obtain ⟨p, v⟩ := r
      intro s' n hw' hn' hd hr
      have h1 := hr (p, v) (by simp)
      have heff := set_effect s' hw' n p v fixed
      have hok : (s'.set n p v fixed).2 = none := by
        rw [set_error_iff s' hw']
        exact ⟨by simp [hd, h1.1], Or.inr (by rw [hn']; exact h1.2)⟩
      unfold GState.setAll
      rcases hst : s'.set n p v fixed with ⟨s'', e⟩
      rw [hst] at hok heff
      simp only at hok heff ⊢
      subst hok
      exact ih s'' n heff.1 (heff.2.1.trans hn') hd (fun r hr' => hr r (List.mem_cons_of_mem _ hr'))
  generalize g.states = st at hvals
  have outer : ∀ (st : List (Name × Dict Name (Val α))) (s' : GState α), WF s' →
      s'.numSamples = s.numSamples →
      (∀ q ∈ st, hasDot q.1 = false ∧ ∀ r ∈ q.2, hasDot r.1 = false ∧
        ∃ w, GState.normalise s.numSamples r.2 = .ok w) → (s'.setNested fixed st).2 = none := by
    intro st
    induction st with
    | nil => intros; rfl
    | cons q rest ih =>
      obtain ⟨n, vars⟩ := q
      intro s' hw' hn' hq
      have h1 := hq (n, vars) (by simp)
      have hok := inner vars s' n hw' hn' h1.1 h1.2
      have hwf := setAll_wf vars s' hw' n fixed
      unfold GState.setNested
      rcases hst : s'.setAll n fixed vars with ⟨s'', e⟩
      rw [hst] at hok hwf
      simp only at hok hwf ⊢
      subst hok
      exact ih s'' hwf.1 (hwf.2.trans hn') (fun q hq' => hq q (List.mem_cons_of_mem _ hq'))
  exact outer st s hw rfl hvals

/-- Non-vacuity of C09. -/
example : ((({ numSamples := 2, numParams := 0, states := [], fixed := [] } : GState Nat).update
    (.nested [(['a'], [(['x'], .scalar 1), (['y'], .arr [.scalar 1, .scalar 2])])]) false).2 = none) := rfl

end LCL.GraphProps
