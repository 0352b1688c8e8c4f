import Verif.Spec.Analyse
import Verif.Props.PostProcess
import Verif.Props.Recorded

/-!
# C142 — from a simulation to its detections
-/

namespace LCL.AnalyseProps
open LCL LCL.FullRun LCL.FullRunSpec LCL.FullRunProps LCL.EndToEnd LCL.EndToEndSpec LCL.NodeSpec LCL.ObsSpec LCL.SimSpec LCL.PostSpec LCL.Analyse LCL.AnalyseSpec LCL.PhotSpec LCL.PostProps
variable {σ : Type}

/-! ### Packed columns -/

theorem flatMap_get {β γ : Type} (f : β → List γ) : ∀ (l : List β) (k : Nat) (b : β) (i : Nat), l[k]? = some b → i < (f b).length →
    (l.flatMap f)[((l.map fun b => (f b).length).take k).sum + i]? = (f b)[i]?
  | [], k, b, i, h, _ => by cases h
  | a :: l, 0, b, i, h, hi => by
    simp only [List.getElem?_cons_zero, Option.some.injEq] at h
    subst h
    simp only [List.take_zero, List.sum_nil, Nat.zero_add, List.flatMap_cons]
    rw [List.getElem?_append_left hi]
  | a :: l, k + 1, b, i, h, hi => by
    simp only [List.getElem?_cons_succ] at h
    simp only [List.map_cons, List.take_succ_cons, List.sum_cons, List.flatMap_cons]
    rw [List.getElem?_append_right (by omega), ← flatMap_get f l k b i h hi]
    congr 1
    omega

theorem ownerFrom_get : ∀ (counts : List Nat) (s k c i : Nat), counts[k]? = some c → i < c → (ownerFrom s counts)[(counts.take k).sum + i]? = some (s + k)
  | [], s, k, c, i, h, _ => by cases h
  | a :: l, s, 0, c, i, h, hi => by
    simp only [List.getElem?_cons_zero, Option.some.injEq] at h
    subst h
    simp only [List.take_zero, List.sum_nil, Nat.zero_add, ownerFrom]
    rw [List.getElem?_append_left (by simpa using hi), List.getElem?_replicate, if_pos hi]
    rfl
  | a :: l, s, k + 1, c, i, h, hi => by
    simp only [List.getElem?_cons_succ] at h
    simp only [List.take_succ_cons, List.sum_cons, ownerFrom]
    rw [List.getElem?_append_right (by simp; omega), List.length_replicate,
      show a + (l.take k).sum + i - a = (l.take k).sum + i by omega, ownerFrom_get l (s + 1) k c i h hi]
    congr 1
    omega

theorem lightcurve_length {nd : Nested} {name : Name} {c : List NCell} (hc : nd.cols.get? name = some c) (hl : c.length = nd.index.length) (k : Nat) :
    (lightcurve nd k name).length = (nd.index.filter fun j => decide (j = k)).length := by
  unfold lightcurve
  rw [hc, Option.getD_some, List.length_map]
  clear hc
  revert hl
  generalize nd.index = l
  induction l generalizing c with
  | nil => intro _; simp
  | cons a l ih =>
    intro hl
    cases c with
    | nil => simp at hl
    | cons x c =>
      simp only [List.zip_cons_cons, List.filter_cons]
      have := ih (c := c) (by simpa using hl)
      split <;> simp [this]

theorem frame_lc (out : Outcome σ) : ∃ lc, (resultFrame out).lc = some lc ∧ lc.counts = (List.range out.sampled.numSamples).map (fun k => (out.nested.index.filter fun j => decide (j = k)).length) ∧
    ∀ name, lc.flat.get? name = (out.nested.cols.get? name).map fun _ => (List.range out.sampled.numSamples).flatMap fun k => (lightcurve out.nested k name).map ofNCell := by
  refine ⟨_, rfl, rfl, fun name => ?_⟩
  dsimp only
  induction out.nested.cols with
  | nil => rfl
  | cons q d ih =>
    obtain ⟨a, b⟩ := q
    simp only [List.map_cons, Dict.get?_cons]
    split
    · rename_i h; subst h; rfl
    · exact ih

/-- The cells of the returned table are those of the lightcurves. -/
theorem cellAt_frame (out : Outcome σ) {name : String} {c : List NCell} (hc : out.nested.cols.get? name.toList = some c) (hl : c.length = out.nested.index.length) {k : Nat}
    (hk : k < out.sampled.numSamples) (i : Nat) : cellAt (resultFrame out) k name i = ((lightcurve out.nested k name.toList)[i]?).map ofNCell := by
  obtain ⟨lc, h1, h2, h3⟩ := frame_lc out
  have hcount : lc.counts = (List.range out.sampled.numSamples).map fun k => ((lightcurve out.nested k name.toList).map ofNCell).length := by
    rw [h2]
    refine List.map_congr_left fun k _ => ?_
    rw [List.length_map, lightcurve_length hc hl]
  have hck : lc.counts[k]? = some (lightcurve out.nested k name.toList).length := by
    rw [hcount, List.getElem?_map, List.getElem?_range hk]
    simp
  unfold cellAt
  rw [h1]
  dsimp only
  rw [hck]
  dsimp only
  split
  · rename_i hi
    unfold entry
    rw [h3, hc, Option.map_some, Option.bind_some, hcount,
      flatMap_get (fun k => (lightcurve out.nested k name.toList).map ofNCell) _ k k i (List.getElem?_range hk) (by simpa using hi), List.getElem?_map]
  · rename_i hi
    rw [List.getElem?_eq_none (by omega)]
    rfl

/-! ### The columns of the observations -/

theorem extend_has {d : Dict Name (List NCell)} {c : Name} (k : Name) (v : List NCell) (h : c ∈ d.keys) : c ∈ (extend d k v).keys := by
  unfold extend
  exact (Dict.mem_keys_set d k c _).2 (Or.inr h)

theorem saveAll_has {t : ObsTable} {oi : ObsIndex} {n : Nat} {c : Name} : ∀ (cols : List Name) (d d' : Dict Name (List NCell)), saveAll t oi n cols d = .ok d' → c ∈ d.keys → c ∈ d'.keys
  | [], d, d', h, hc => by
    simp only [saveAll, Except.ok.injEq] at h
    exact h ▸ hc
  | a :: cols, d, d', h, hc => by
    unfold saveAll at h
    split at h
    · cases h
    · exact saveAll_has cols _ d' h (extend_has _ _ hc)

theorem one_has {R : Type} {noise : List ℝ → List ℝ → R → Except Err (List ℝ × R)} {mask : Option (List ℝ → SState ℝ → List Bool)} {saveCols : List Name} {idx j : Nat} {st : SState ℝ}
    {s : Survey R} {times : List ℝ} {filters : List Name} {oi : ObsIndex} {nd nd' : Nested} {m : Nat} {r r' : R} {c : Name}
    (h : simulateOne noise mask saveCols idx j st s times filters oi nd r = .ok (nd', m, r')) (hc : c ∈ nd.cols.keys) : c ∈ nd'.cols.keys := by
  unfold simulateOne at h
  split at h
  · cases h
  · split at h
    · cases h
    · split at h
      · cases h
      · split at h
        · cases h
        · dsimp only at h
          split at h
          · cases h
          · rename_i d hd
            simp only [Except.ok.injEq, Prod.mk.injEq] at h
            rw [← h.1]
            exact saveAll_has _ _ _ hd (extend_has _ _ (extend_has _ _ (extend_has _ _ (extend_has _ _ (extend_has _ _ (extend_has _ _ hc))))))

theorem surveys_has {R : Type} {noise : List ℝ → List ℝ → R → Except Err (List ℝ × R)} {mask : Option (List ℝ → SState ℝ → List Bool)} {saveCols : List Name} {idx : Nat} {st : SState ℝ}
    {c : Name} : ∀ (ps : List (Prepared R)) (j total : Nat) (nd : Nested) (r : R) (out : Nested × Nat × R),
    simulateSurveys noise mask saveCols idx st j ps total nd r = .ok out → c ∈ nd.cols.keys → c ∈ out.1.cols.keys
  | [], j, total, nd, r, out, h, hc => by
    simp only [simulateSurveys, Except.ok.injEq] at h
    exact h ▸ hc
  | p :: ps, j, total, nd, r, out, h, hc => by
    unfold simulateSurveys at h
    split at h
    · cases h
    · split at h
      · cases h
      · rename_i h1
        exact surveys_has ps _ _ _ _ out h (one_has h1 hc)

theorem objects_has {R : Type} {noise : List ℝ → List ℝ → R → Except Err (List ℝ × R)} {mask : Option (List ℝ → SState ℝ → List Bool)} {saveCols : List Name} {ps : List (Prepared R)}
    {c : Name} : ∀ (ss : List SimState) (idx : Nat) (nd : Nested) (r : R) (out : Nested × List Nat × R),
    simulateObjects noise mask saveCols ps idx ss nd r = .ok out → c ∈ nd.cols.keys → c ∈ out.1.cols.keys
  | [], idx, nd, r, out, h, hc => by
    simp only [simulateObjects, Except.ok.injEq] at h
    exact h ▸ hc
  | s :: ss, idx, nd, r, out, h, hc => by
    unfold simulateObjects at h
    split at h
    · cases h
    · rename_i h1
      split at h
      · cases h
      · rename_i h2
        simp only [Except.ok.injEq] at h
        have := objects_has ss _ _ _ _ h2 (surveys_has ps _ _ _ _ _ h1 hc)
        rw [← h]
        exact this

theorem empty_has (saveCols : List Name) {c : Name} (hc : c ∈ baseCols) : c ∈ (emptyNested saveCols).cols.keys := by
  have h : ∀ (l : List Name) (d : Dict Name (List NCell)), c ∈ d.keys → c ∈ (l.foldl (fun (d : Dict Name (List NCell)) c => Dict.set d c []) d).keys := by
    intro l
    induction l with
    | nil => exact fun d h => h
    | cons a l ih => exact fun d h => ih _ ((Dict.mem_keys_set d a c _).2 (Or.inr h))
  refine h saveCols _ ?_
  unfold Dict.keys
  rw [List.map_map]
  simpa [Function.comp_def] using hc

/-- Every standard column of the observations is there, and all columns have one entry for each observation. -/
theorem nested_cols {isBand : Bool} {ev : Heap ℝ σ → PNode ℝ σ → SurveyArg → List ℝ → List Name → SState ℝ → σ → Except Err (List ℝ × σ)} {draw : σ → ℝ × σ} {H : Heap ℝ σ} {root : NodeId} {objs : List NodeId} {n : Int} {args : List SurveyArg}
    {saveCols paramCols : List Name} {offset : Option (List (Option ℝ))} {w : σ} {out : Outcome σ}
    (h : simulateFullWith isBand ev draw H root objs n args saveCols paramCols offset w = .ok out) :
    (∀ c ∈ baseCols, ∃ l, out.nested.cols.get? c = some l ∧ l.length = out.nested.index.length) ∧ ∀ q ∈ out.nested.cols, q.2.length = out.nested.index.length := by
  obtain ⟨run, nd, table, states, res, table', hn, hsp, hsm, hnd, hp, hsim, hnest, hno, hfr⟩ := run_parts h
  rw [hnest]
  unfold simulateWith simulateLightcurves at hsim
  split at hsim
  · cases hsim
  split at hsim
  · cases hsim
  split at hsim
  · cases hsim
  split at hsim
  · cases hsim
  split at hsim
  · cases hsim
  split at hsim
  · cases hsim
  rename_i hobj
  split at hsim
  · cases hsim
  rename_i hck
  simp only [Except.ok.injEq, Prod.mk.injEq] at hsim
  obtain ⟨rfl, -⟩ := hsim
  dsimp only
  unfold checkNested at hck
  split at hck
  · rename_i hall
    simp only [Except.ok.injEq] at hck
    subst hck
    refine ⟨fun c hc => ?_, fun q hq => by simpa using List.all_eq_true.1 hall q hq⟩
    have hk := objects_has _ _ _ _ _ hobj (empty_has saveCols hc)
    cases hg : Dict.get? _ c with
    | none => exact absurd hk ((Dict.get?_eq_none_iff _ _).1 hg)
    | some l =>
      refine ⟨l, rfl, ?_⟩
      have := List.all_eq_true.1 hall _ (Dict.mem_of_get? hg)
      simpa using this
  · cases hck

/-! ### Augmenting a returned table -/

/-- A column that holds numbers (or nothing) in arithmetic. -/
theorem opt_column {l : List PCell} (h : ∀ x ∈ l, ∃ y : Option ℝ, x = PCell.ofOpt y) : ∃ m : List (Option ℝ), l = m.map PCell.ofOpt := by
  induction l with
  | nil => exact ⟨[], rfl⟩
  | cons a l ih =>
    obtain ⟨m, hm⟩ := ih fun x hx => h x (List.mem_cons_of_mem _ hx)
    obtain ⟨y, hy⟩ := h a (by simp)
    exact ⟨y :: m, by rw [List.map_cons, ← hm, hy]⟩

theorem usable_cases (l : List (Option ℝ)) : usableT0 l = none ∨ ∃ t, usableT0 l = some t ∧ l = t.map some ∧ ∀ x ∈ t, x ≠ 0 := by
  induction l with
  | nil => exact Or.inr ⟨[], rfl, rfl, by simp⟩
  | cons a l ih =>
    cases a with
    | none => exact Or.inl rfl
    | some x =>
      unfold usableT0
      by_cases hx : x = 0
      · rw [if_pos hx]; exact Or.inl rfl
      · rw [if_neg hx]
        rcases ih with h | ⟨t, h1, h2, h3⟩
        · rw [h]; exact Or.inl rfl
        · rw [h1]
          refine Or.inr ⟨x :: t, rfl, by rw [h2]; rfl, ?_⟩
          intro y hy
          rcases List.mem_cons.1 hy with rfl | hy
          · exact hx
          · exact h3 y hy

/-- A table labelled 0, 1, 2, … with numbers (or nothing) where numbers are expected is augmented without an error. -/
theorem augment_ok {r : NFrame} {lc : NestCol} (minSnr : ℝ) {t0 flux err mjd : List (Option ℝ)}
    (hlc : r.lc = some lc) (hn : lc.counts.length = r.labels.length) (hlabels : r.labels = (List.range r.labels.length).map Int.ofNat)
    (ht : r.cols.get? "t0".toList = some (t0.map PCell.ofOpt)) (htl : t0.length = r.labels.length)
    (hf : lc.flat.get? "flux".toList = some (flux.map PCell.ofOpt)) (he : lc.flat.get? "fluxerr".toList = some (err.map PCell.ofOpt))
    (hm : lc.flat.get? "mjd".toList = some (mjd.map PCell.ofOpt)) :
    ∃ r', augmentNested r minSnr = .ok r' ∧ ((∀ x ∈ t0, ∃ y, x = some y ∧ y ≠ 0) → ∃ lc', r'.lc = some lc' ∧
      ∀ (p row : Nat) (m x : ℝ), (owner lc.counts)[p]? = some row → t0[row]? = some (some x) →
        entry lc.flat "mjd".toList p = some (.num m) → entry lc'.flat "time_rel".toList p = some (.num (m - x))) := by
  rcases usable_cases t0 with hu | ⟨l, _, rfl, hl⟩
  · have hrun : augmentNested r minSnr = .ok { r with lc := some ⟨lc.counts, addColumns (detectCell minSnr) flux err lc.flat⟩ } := by
      unfold augmentNested
      rw [hlc]
      dsimp only
      rw [if_pos (by rw [has_of hf, has_of he]; rfl), pnums_of hf]
      dsimp only
      rw [pnums_of he]
      dsimp only
      unfold nestedT0
      rw [if_pos (has_of ht), pnums_of ht]
      dsimp only
      rw [hu]
    refine ⟨_, hrun, fun h => ?_⟩
    have : ∃ t : List ℝ, t0 = t.map some ∧ ∀ x ∈ t, x ≠ 0 := by
      clear hu ht htl
      induction t0 with
      | nil => exact ⟨[], rfl, by simp⟩
      | cons a l ih =>
        obtain ⟨y, rfl, hy⟩ := h a (by simp)
        obtain ⟨t, rfl, h2⟩ := ih fun x hx => h x (List.mem_cons_of_mem _ hx)
        refine ⟨y :: t, rfl, ?_⟩
        intro z hz
        rcases List.mem_cons.1 hz with rfl | hz
        · exact hy
        · exact h2 z hz
    obtain ⟨t, rfl, h2⟩ := this
    rw [usable_of h2] at hu
    cases hu
  · rw [List.map_map] at ht
    obtain ⟨r', lc', h1, h2, h3⟩ := C44_time_rel_partial (minSnr := minSnr) hlc hn hlabels ht (by simpa using htl) hl hf he hm
    refine ⟨r', h1, fun _ => ⟨lc', h2, fun p row m x hp hx => h3 p row m x hp ?_⟩⟩
    rw [List.getElem?_map] at hx
    cases hg : l[row]? with
    | none => rw [hg] at hx; cases hx
    | some y => rw [hg] at hx; cases hx; rfl

/-- Columns that augmenting does not add are those of the table, row by row; graded entries, row by row. -/
theorem augment_cells {r r' : NFrame} {minSnr : ℝ} (h : augmentNested r minSnr = .ok r') :
    r'.labels = r.labels ∧ r'.cols = r.cols ∧ (∀ k, entries r' k = entries r k) ∧ (∀ k (name : String) i, name.toList ∉ added → cellAt r' k name i = cellAt r k name i) ∧
    ∀ (k i : Nat) (f e : ℝ), cellAt r k "flux" i = some (.num f) → cellAt r k "fluxerr" i = some (.num e) →
      (0 < f ∧ 0 < e → Graded r' k i minSnr f e) ∧ (¬ (0 < f ∧ 0 < e) → Ungraded r' k i) := by
  obtain ⟨h1, h2, lc, lc', h3, h4, h5, h6, h7⟩ := C44_entries_partial h
  refine ⟨h1, h2, ?_, ?_, ?_⟩
  · intro k
    unfold entries
    rw [h3, h4, Option.bind_some, Option.bind_some, h5]
  · intro k name i hn
    unfold cellAt
    rw [h3, h4]
    dsimp only
    rw [h5]
    unfold entry
    rw [h6 _ hn]
  · intro k i f e hf he
    have hcell : ∀ name : String, (cellAt r k name i).isSome = true → cellAt r' k name i = entry lc'.flat name.toList ((lc.counts.take k).sum + i) ∧
        cellAt r k name i = entry lc.flat name.toList ((lc.counts.take k).sum + i) ∧ ∀ name' : String, cellAt r' k name' i = entry lc'.flat name'.toList ((lc.counts.take k).sum + i) := by
      intro name hs
      unfold cellAt at hs ⊢
      rw [h3] at hs ⊢
      rw [h4]
      dsimp only at hs ⊢
      rw [h5]
      cases hc : lc.counts[k]? with
      | none => rw [hc] at hs; cases hs
      | some c =>
        rw [hc] at hs
        dsimp only at hs ⊢
        by_cases hi : i < c
        · simp only [if_pos hi, implies_true, and_self]
        · rw [if_neg hi] at hs; cases hs
    obtain ⟨_, g2, g3⟩ := hcell "flux" (by rw [hf]; rfl)
    obtain ⟨_, g4, _⟩ := hcell "fluxerr" (by rw [he]; rfl)
    have := h7 _ f e (g2 ▸ hf) (g4 ▸ he)
    unfold EntryOK at this
    unfold Graded Ungraded
    simp only [g3]
    exact this

/-! ### The property -/

/-- The standard column `name` of the returned table, whose cells are all numbers. -/
theorem numeric_column {out : Outcome σ} {name : String} (hc : ∃ l, out.nested.cols.get? name.toList = some l)
    (hnum : ∀ k, k < out.sampled.numSamples → ∀ i, i < (lightcurve out.nested k name.toList).length → ∃ x : ℝ, (lightcurve out.nested k name.toList)[i]? = some (.num x)) :
    ∃ lc, (resultFrame out).lc = some lc ∧ ∃ m : List (Option ℝ), lc.flat.get? name.toList = some (m.map PCell.ofOpt) := by
  obtain ⟨lc, h1, _, h3⟩ := frame_lc out
  obtain ⟨l, hl⟩ := hc
  refine ⟨lc, h1, ?_⟩
  rw [h3, hl, Option.map_some]
  obtain ⟨m, hm⟩ := opt_column (l := (List.range out.sampled.numSamples).flatMap fun k => (lightcurve out.nested k name.toList).map ofNCell) (by
    intro x hx
    obtain ⟨k, hk, hx⟩ := List.mem_flatMap.1 hx
    obtain ⟨y, hy, rfl⟩ := List.mem_map.1 hx
    obtain ⟨i, hi, rfl⟩ := List.getElem_of_mem hy
    obtain ⟨x, hx⟩ := hnum k (List.mem_range.1 hk) i hi
    rw [List.getElem?_eq_getElem hi, Option.some.injEq] at hx
    rw [hx]
    exact ⟨some x, rfl⟩)
  exact ⟨m, by rw [hm]⟩

/-- C142. The table a simulation returns can always be augmented. The lightcurve in row `k` of the result has one entry for each row of each survey that object `k` is seen
in, in the order of the surveys and of their rows; every entry is the measurement of the model's flux in that row, and is graded by the measured flux and its error; rows
and all other columns are unchanged. If every object has a non-zero t0, every entry's relative time is its time minus the t0 of its own object. Missing: tables from which
objects without observations were dropped first, and the detection flag of entries that are not graded, see the counterexamples. -/
theorem C142_detections_partial {isBand : Bool} {ev : Heap ℝ σ → PNode ℝ σ → SurveyArg → List ℝ → List Name → SState ℝ → σ → Except Err (List ℝ × σ)} {draw : σ → ℝ × σ} {H : Heap ℝ σ} (hG : GraphOK H) {root : NodeId} {objs : List NodeId} (hph : Physical H root) {n : Int}
    {args : List SurveyArg} {saveCols paramCols : List Name} {offset : Option (List (Option ℝ))} {w : σ} {out : Outcome σ} (P : SurveyArg → SState ℝ → Name → ℝ → ℝ → Prop)
    (hstd : ∀ c ∈ paramCols, colName c ∉ standardCols) (hcl : (paramCols.map colName).Nodup) (hne : args ≠ [])
    (hbuilt : ∀ a ∈ args, Built a.table)
    (hrad : ∀ a ∈ args, ∃ rad, a.table.radius = some rad ∧ 0 ≤ rad ∧ rad ≤ 180) (hsave : saveCols.Nodup ∧ ∀ c ∈ saveCols, c ∉ baseCols)
    (h : simulateFullWith isBand ev draw H root objs n args saveCols paramCols offset w = .ok out)
    (hev : ∀ nd, out.graph[root]? = some nd → EndToEndProps.Sized (ev out.graph nd))
    (hobs : ∀ nd st (k : Nat) a, out.graph[root]? = some nd → (k : Int) < n → StateOf out.sampled k st → a ∈ args → Fluxes (ev out.graph nd a) st (P a st)) (minSnr : ℝ) :
    ∃ nd r, out.graph[root]? = some nd ∧ augmentNested (resultFrame out) minSnr = .ok r ∧ r.labels = (List.range n.toNat).map Int.ofNat ∧ r.cols = (resultFrame out).cols ∧
      (∀ (k : Nat) (name : String) i, name.toList ∉ added → cellAt r k name i = cellAt (resultFrame out) k name i) ∧ ∃ (w0 : σ) (nobs : List Nat),
      nobs.length = n.toNat ∧ out.world = afterDraws draw w0 nobs.sum ∧
      ∀ k : Nat, (k : Int) < n → ∃ (st : SState ℝ) (ra dec : ℝ) (t0 : Option ℝ) (obs : List (Nat × Nat)), StateOf out.sampled k st ∧
        sampleValue out.sampled nd.str "ra".toList k = some (.scalar ra) ∧ sampleValue out.sampled nd.str "dec".toList k = some (.scalar dec) ∧
        sampleValue out.sampled nd.str "t0".toList k = some (cellOf t0) ∧
        nobs[k]? = some obs.length ∧ obs.Pairwise (fun x y => x.1 < y.1 ∨ x.1 = y.1 ∧ x.2 < y.2) ∧
        (∀ j q, (j, q) ∈ obs ↔ ∃ a rad, args[j]? = some a ∧ a.table.radius = some rad ∧
          Match a.table (ra, dec) rad (winLo offset t0) (winHi offset t0) q) ∧
        entries r k = some obs.length ∧
        ∀ (i j q : Nat), obs[i]? = some (j, q) → (∃ a, args[j]? = some a ∧ Analysed a j q (P a st) (drawAt draw w0 ((nobs.take k).sum + i)) minSnr r k i) ∧
          ((∀ k' : Nat, (k' : Int) < n → ∃ x, sampleValue out.sampled nd.str "t0".toList k' = some (.scalar x) ∧ x ≠ 0) →
            ∃ t x, t0 = some x ∧ cellAt r k "mjd" i = some (.num t) ∧ cellAt r k "time_rel" i = some (.num (t - x))) := by
  obtain ⟨nd, N, w0, nobs, g1, hN, _, g3, _, g5, g6⟩ := C119_fluxes hG hph P hstd hne hbuilt hrad hsave h hev hobs
  obtain ⟨nd', N', gd, hN', _, _, _, gt0, _⟩ := C119_table_partial hG hph hstd hcl h
  have hNN : N' = N := by omega
  subst hNN
  have hnd : nd' = nd := by rw [gd] at g1; exact Option.some.inj g1
  subst hnd
  have hnum : out.sampled.numSamples = N' := by
    have := (C119_sampled hG h).2.1
    omega
  have hnt : n.toNat = N' := by omega
  have hcols := (nested_cols h).1
  have hcell : ∀ {name : String}, name.toList ∈ baseCols → ∀ {k : Nat}, k < N' → ∀ i, cellAt (resultFrame out) k name i = ((lightcurve out.nested k name.toList)[i]?).map ofNCell := by
    intro name hn k hk i
    obtain ⟨l, hl, hlen⟩ := hcols _ hn
    exact cellAt_frame out hl hlen (by omega) i
  have hnumeric : ∀ {name : String}, name.toList ∈ baseCols → (∀ k, k < N' → ∀ i, i < (lightcurve out.nested k name.toList).length → ∃ x : ℝ, (lightcurve out.nested k name.toList)[i]? = some (.num x)) →
      ∃ lc, (resultFrame out).lc = some lc ∧ ∃ m : List (Option ℝ), lc.flat.get? name.toList = some (m.map PCell.ofOpt) := by
    intro name hn hk
    obtain ⟨l, hl, _⟩ := hcols _ hn
    exact numeric_column ⟨l, hl⟩ fun k h' => hk k (by omega)
  have hmeas : ∀ k, k < N' → ∀ i, ∀ c ∈ baseCols, i < (lightcurve out.nested k c).length → ∃ a j q st eps, MeasuredBy a j q (P a st) eps (lightcurve out.nested k) i := by
    intro k hk i c hc hi
    obtain ⟨st, ra, dec, t0, obs, _, _, _, _, _, _, _, hl, hm⟩ := g6 k hk
    rw [hl c hc] at hi
    obtain ⟨a, _, ha⟩ := hm i obs[i].1 obs[i].2 (List.getElem?_eq_getElem hi)
    exact ⟨a, _, _, _, _, ha⟩
  obtain ⟨lc, hlc, flux, hflux⟩ := hnumeric (name := "flux") (by decide) fun k hk i hi => by
    obtain ⟨a, j, q, st, eps, t, f, x, noise, err, m1, m2, m3, m4, m5, m6, m7, m8, m9, m10, m11, m12, m13⟩ := hmeas k hk i _ (by decide) hi
    exact ⟨_, m12⟩
  obtain ⟨lc1, hlc1, err, herr⟩ := hnumeric (name := "fluxerr") (by decide) fun k hk i hi => by
    obtain ⟨a, j, q, st, eps, t, f, x, noise, err, m1, m2, m3, m4, m5, m6, m7, m8, m9, m10, m11, m12, m13⟩ := hmeas k hk i _ (by decide) hi
    exact ⟨_, m11⟩
  obtain ⟨lc2, hlc2, mjd, hmjd⟩ := hnumeric (name := "mjd") (by decide) fun k hk i hi => by
    obtain ⟨a, j, q, st, eps, t, f, x, noise, err, m1, m2, m3, m4, m5, m6, m7, m8, m9, m10, m11, m12, m13⟩ := hmeas k hk i _ (by decide) hi
    exact ⟨_, m8⟩
  obtain rfl : lc1 = lc := by rw [hlc] at hlc1; exact (Option.some.inj hlc1).symm
  obtain rfl : lc2 = lc1 := by rw [hlc] at hlc2; exact (Option.some.inj hlc2).symm
  obtain ⟨l, hl1, hl2, hl3⟩ := gt0
  have hof : ∀ o : Option ℝ, ofRCell (.val (cellOf o)) = PCell.ofOpt o := fun o => by cases o <;> rfl
  obtain ⟨t0s, ht0s⟩ := opt_column (l := l.map ofRCell) (by
    intro x hx
    obtain ⟨y, hy, rfl⟩ := List.mem_map.1 hx
    obtain ⟨k, hk, rfl⟩ := List.getElem_of_mem hy
    obtain ⟨st, ra, dec, t0, obs, _, _, _, ht, _⟩ := g6 k (by omega)
    have := hl3 k (by omega)
    dsimp only at this
    rw [ht, List.getElem?_eq_getElem hk, Option.map_some, Option.some.injEq] at this
    rw [this]
    exact ⟨t0, hof t0⟩)
  have htcol : (resultFrame out).cols.get? "t0".toList = some (t0s.map PCell.ofOpt) := by
    rw [← ht0s]
    show Dict.get? (out.table.map fun q => (q.1, q.2.map ofRCell)) _ = _
    revert hl1
    generalize out.table = T
    induction T with
    | nil => intro h; cases h
    | cons q T ih =>
      obtain ⟨a, b⟩ := q
      simp only [List.map_cons, Dict.get?_cons]
      intro h
      split
      · rename_i e; rw [if_pos e] at h; cases h; rfl
      · rename_i e; rw [if_neg e] at h; exact ih h
  have htlen : t0s.length = N' := by
    have := congrArg List.length ht0s
    simpa [hl2] using this.symm
  have htat : ∀ k, k < N' → ∀ o, sampleValue out.sampled nd'.str "t0".toList k = some (cellOf o) → t0s[k]? = some o := by
    intro k hk o ho
    have h1 := hl3 k hk
    dsimp only at h1
    rw [ho, Option.map_some] at h1
    have h2 := congrArg (fun z => z[k]?) ht0s
    simp only [List.getElem?_map, h1, Option.map_some, hof] at h2
    cases hg : t0s[k]? with
    | none => rw [hg] at h2; cases h2
    | some y =>
      rw [hg] at h2
      simp only [Option.map_some, Option.some.injEq] at h2
      cases o <;> cases y <;> simp_all [PCell.ofOpt]
  have hcl' : lc2.counts = (List.range out.sampled.numSamples).map fun k => (out.nested.index.filter fun j => decide (j = k)).length := by
    obtain ⟨lc', e1, e2, _⟩ := frame_lc out
    rw [hlc] at e1
    cases e1
    exact e2
  have hlab : (resultFrame out).labels = (List.range N').map Int.ofNat := by rw [← hnum]; rfl
  obtain ⟨r, hr, hrel⟩ := augment_ok minSnr hlc (by rw [hcl', hlab]; simp [hnum]) (by rw [hlab]; simp) htcol (by rw [hlab]; simpa using htlen) hflux herr hmjd
  obtain ⟨c1, c2, c3, c4, c5⟩ := augment_cells hr
  refine ⟨nd', r, g1, hr, by rw [c1, hlab, hnt], c2, c4, w0, nobs, by omega, g5, fun k hk => ?_⟩
  have hk : k < N' := by omega
  obtain ⟨st, ra, dec, t0, obs, k1, k2, k3, k4, k5, k6, k7, k8, k9⟩ := g6 k hk
  have hcount : lc2.counts[k]? = some obs.length := by
    obtain ⟨l, e1, e2⟩ := hcols "mjd".toList (by decide)
    rw [hcl', List.getElem?_map, List.getElem?_range (by omega), Option.map_some, ← lightcurve_length e1 e2, k8 _ (by decide)]
  refine ⟨st, ra, dec, t0, obs, k1, k2, k3, k4, k5, k6, k7, ?_, fun i j q hi => ?_⟩
  · rw [c3]
    unfold entries
    rw [hlc, Option.bind_some, hcount]
  obtain ⟨a, ha, t, f, x, noise, e, m1, m2, m3, m4, m5, m6, m7, m8, m9, m10, m11, m12, m13⟩ := k9 i j q hi
  have hc : ∀ {name : String}, name.toList ∈ baseCols → name.toList ∉ added → ∀ {c : NCell}, (lightcurve out.nested k name.toList)[i]? = some c → cellAt r k name i = some (ofNCell c) := by
    intro name hn hn' c hc
    rw [c4 k name i hn', hcell hn hk, hc, Option.map_some]
  have hf := hc (name := "flux") (by decide) (by decide) m12
  have he := hc (name := "fluxerr") (by decide) (by decide) m11
  have hm := hc (name := "mjd") (by decide) (by decide) m8
  refine ⟨⟨a, ha, t, f, x, noise, e, m1, m2, m3, m4, m7, hm, hc (name := "filter") (by decide) (by decide) m9, hc (name := "flux_perfect") (by decide) (by decide) m10, he, hf,
    hc (name := "survey_idx") (by decide) (by decide) m13, c5 k i _ _ (by rw [hcell (by decide) hk, m12]; rfl) (by rw [hcell (by decide) hk, m11]; rfl)⟩, fun hall => ?_⟩
  obtain ⟨lc', e1, e2⟩ := hrel (by
    intro y hy
    obtain ⟨k', hk', rfl⟩ := List.getElem_of_mem hy
    obtain ⟨x, hx, hx0⟩ := hall k' (by omega)
    have := htat k' (by omega) (some x) hx
    rw [List.getElem?_eq_getElem hk', Option.some.injEq] at this
    exact ⟨x, this, hx0⟩)
  obtain ⟨x0, hx0, _⟩ := hall k (by omega)
  have ht0 : t0 = some x0 := by
    rw [k4] at hx0
    cases t0 with
    | none => cases hx0
    | some y => cases hx0; rfl
  have hil : i < obs.length := (List.getElem?_eq_some_iff.1 hi).1
  have hlc' : lc'.counts = lc2.counts := by
    obtain ⟨_, _, l1, l2, q1, q2, q3, _⟩ := C44_entries_partial hr
    rw [hlc] at q1; rw [e1] at q2
    cases q1; cases q2
    exact q3
  refine ⟨t, x0, ht0, hm, ?_⟩
  have := e2 ((lc2.counts.take k).sum + i) k t x0 (by
    have := ownerFrom_get lc2.counts 0 k obs.length i hcount hil
    rw [Nat.zero_add] at this
    exact this) (htat k hk (some x0) (ht0 ▸ k4)) (by
    have := hcell (name := "mjd") (by decide) hk i
    rw [m8] at this
    unfold cellAt at this
    rw [hlc] at this
    dsimp only at this
    rw [hcount] at this
    dsimp only at this
    rw [if_pos hil] at this
    exact this)
  unfold cellAt
  rw [e1]
  dsimp only
  rw [hlc', hcount]
  dsimp only
  rw [if_pos hil]
  exact this

/-! ### Dropping the objects without observations -/

theorem owner_mem (counts : List Nat) (s k c : Nat) (h : counts[k]? = some c) (hc : 0 < c) : s + k ∈ ownerFrom s counts := by
  have := ownerFrom_get counts s k c 0 h hc
  exact List.mem_of_getElem? this

theorem mem_flatLabels {labels : List Int} {counts : List Nat} (k : Nat) (l : Int) (c : Nat) (h1 : labels[k]? = some l) (h2 : counts[k]? = some c) (hc : 0 < c) :
    l ∈ flatLabels labels counts := by
  unfold flatLabels
  refine List.mem_flatten.2 ⟨List.replicate c l, ?_, by simp; omega⟩
  refine List.mem_of_getElem? (i := k) ?_
  rw [List.getElem?_zipWith, h1, h2]

theorem takeAt_high {t0 : List ℝ} {idx : List Int} {i : Int} (hi : i ∈ idx) (hge : (t0.length : Int) ≤ i) : takeAt t0 idx = .error .indexError := by
  unfold takeAt
  have : idx.mapM (fun i => (ObsTable.normIndex t0.length i).bind fun k => t0[k]?) = none := by
    induction idx with
    | nil => cases hi
    | cons a l ih =>
      rw [List.mapM_cons]
      rcases List.mem_cons.1 hi with rfl | h
      · have : ObsTable.normIndex t0.length i = none := by
          unfold ObsTable.normIndex
          rw [if_pos (by omega), if_neg (by omega)]
        rw [this]
        rfl
      · cases hx : (ObsTable.normIndex t0.length a).bind fun k => t0[k]? with
        | none => rfl
        | some x => simp only [ih h]; rfl
  rw [this]

/-- C142 is false for the documented sequence simulate, drop, augment: take any table labelled 0, 1, 2, … whose last object was observed and one of whose objects was not, and
whose t0 are non-zero. `results_drop_empty` succeeds, and `results_augment_lightcurves` of what is left raises IndexError: the labels of the rows are used as positions. -/
theorem C142_dropped_counterexample {r : NFrame} {lc : NestCol} (minSnr : ℝ) {N : Nat} {t0 : List ℝ} {flux err mjd : List (Option ℝ)}
    (hwf : PostSpec.WF r) (hlc : r.lc = some lc) (hlabels : r.labels = (List.range (N + 1)).map Int.ofNat)
    (ht : r.cols.get? "t0".toList = some (t0.map PCell.num)) (h0 : ∀ x ∈ t0, x ≠ 0)
    (hf : lc.flat.get? "flux".toList = some (flux.map PCell.ofOpt)) (he : lc.flat.get? "fluxerr".toList = some (err.map PCell.ofOpt))
    (hm : lc.flat.get? "mjd".toList = some (mjd.map PCell.ofOpt)) (hempty : 0 ∈ lc.counts) (hlast : ∃ c, lc.counts[N]? = some c ∧ 0 < c) :
    ∃ r', dropEmpty r = .ok r' ∧ augmentNested r' minSnr = .error .indexError := by
  obtain ⟨r', lc', h1, h2, h3, h4, h5, h6, h7, h8⟩ := C72_drop_empty hwf hlc
  refine ⟨r', h1, ?_⟩
  obtain ⟨hcl, _⟩ := hwf.flat lc hlc
  have hkeep : ∀ {β γ : Type} (f : β → γ) (l : List β) (counts : List Nat), (((l.map f).zip counts).filter fun q => decide (0 < q.2)).map (·.1) =
      ((((l.zip counts).filter fun q => decide (0 < q.2)).map (·.1)).map f) := by
    intro β γ f l
    induction l with
    | nil => intro c; rfl
    | cons a l ih =>
      intro c
      cases c with
      | nil => rfl
      | cons n c =>
        simp only [List.map_cons, List.zip_cons_cons, List.filter_cons]
        split <;> simp [ih]
  have hnodup : ∀ (d : Dict Name (List PCell)) (c : List PCell), r.cols.get? "t0".toList = some c → r'.cols.get? "t0".toList = some (((c.zip lc.counts).filter fun q => decide (0 < q.2)).map (·.1)) := by
    intro _ c hc
    have hsel : r'.cols = r.cols.map fun q => (q.1, keepIf (lc.counts.map fun n => decide (0 < n)) q.2) := by
      unfold dropEmpty at h1
      rw [hlc] at h1
      simp only [Except.ok.injEq] at h1
      rw [← h1]; rfl
    have key : ∀ {β : Type} (l : List β) (counts : List Nat), counts.length = l.length →
        keepIf (counts.map fun n => decide (0 < n)) l = ((l.zip counts).filter fun q => decide (0 < q.2)).map (·.1) := by
      intro β l
      induction l with
      | nil => intro counts h; cases counts <;> simp_all [keepIf]
      | cons x l ih =>
        intro counts h
        cases counts with
        | nil => simp at h
        | cons n counts =>
          have := ih counts (by simpa using h)
          by_cases hn : 0 < n
          · simp [keepIf, hn, this]
          · simp [keepIf, hn, this]
    rw [hsel]
    have hlen := hwf.cols _ (Dict.mem_of_get? hc)
    rw [← key c lc.counts (by rw [hcl, ← hlen])]
    revert hc
    generalize r.cols = T
    induction T with
    | nil => intro h; cases h
    | cons q T ih =>
      obtain ⟨a, b⟩ := q
      simp only [List.map_cons, Dict.get?_cons]
      intro h
      split
      · rename_i e; rw [if_pos e] at h; cases h; rfl
      · rename_i e; rw [if_neg e] at h; exact ih h
  have ht' := hnodup r.cols _ ht
  rw [hkeep] at ht'
  have hrun := augment_run (minSnr := minSnr) h2 ht' (by
    intro x hx
    obtain ⟨q, hq, rfl⟩ := List.mem_map.1 hx
    exact h0 _ (List.of_mem_zip (List.mem_filter.1 hq).1).1) (h3 ▸ hf) (h3 ▸ he) (h3 ▸ hm)
  rw [hrun]
  have htl := hwf.cols _ (Dict.mem_of_get? ht)
  dsimp only at htl
  rw [List.length_map] at htl
  have hN : r.labels.length = N + 1 := by rw [hlabels]; simp
  have hshort : (((t0.zip lc.counts).filter fun q => decide (0 < q.2)).map (·.1)).length ≤ N := by
    rw [List.length_map]
    have : ((t0.zip lc.counts).filter fun q => decide (0 < q.2)).length < (t0.zip lc.counts).length := by
      obtain ⟨k, hk, hk0⟩ := List.getElem_of_mem hempty
      refine List.length_filter_lt_length_iff_exists.2 ⟨(t0[k], lc.counts[k]), ?_, by simp [hk0]⟩
      exact List.mem_of_getElem? (i := k) (List.getElem?_zip_eq_some.2 ⟨List.getElem?_eq_getElem _, List.getElem?_eq_getElem _⟩)
    rw [List.length_zip] at this
    omega
  obtain ⟨c, hc, hc0⟩ := hlast
  have hmem : (N : Int) ∈ flatLabels r'.labels lc'.counts := by
    have hin : ((N : Int), c) ∈ (r.labels.zip lc.counts).filter fun q => decide (0 < q.2) := by
      refine List.mem_filter.2 ⟨List.mem_of_getElem? (i := N) (List.getElem?_zip_eq_some.2 ⟨?_, hc⟩), by simpa using hc0⟩
      rw [hlabels, List.getElem?_map, List.getElem?_range (by omega)]
      rfl
    have hsnd : lc'.counts = ((r.labels.zip lc.counts).filter fun q => decide (0 < q.2)).map (·.2) := by
      rw [h4]
      have : ∀ (l : List Int) (counts : List Nat), counts.length = l.length → counts.filter (fun n => decide (0 < n)) = ((l.zip counts).filter fun q => decide (0 < q.2)).map (·.2) := by
        intro l
        induction l with
        | nil => intro c h; cases c <;> simp_all
        | cons a l ih =>
          intro c h
          cases c with
          | nil => simp at h
          | cons n c =>
            simp only [List.zip_cons_cons, List.filter_cons]
            have := ih c (by simpa using h)
            split <;> simp [this]
      exact this _ _ hcl
    obtain ⟨k, hk, e⟩ := List.getElem_of_mem hin
    refine mem_flatLabels k _ c ?_ ?_ hc0
    · rw [h5, List.getElem?_map, List.getElem?_eq_getElem hk, e]; rfl
    · rw [hsnd, List.getElem?_map, List.getElem?_eq_getElem hk, e]; rfl
  rw [takeAt_high hmem (by exact_mod_cast hshort)]

/-- Two objects, the first without observations, the second with one. -/
example : ∃ r', dropEmpty ⟨[0, 1], [("t0".toList, [.num 3, .num 4])], some ⟨[0, 1], [("flux".toList, [.num 7]), ("fluxerr".toList, [.num 1]), ("mjd".toList, [.num 5])]⟩⟩ = .ok r' ∧
    augmentNested r' 5 = .error .indexError :=
  C142_dropped_counterexample (N := 1) (t0 := [3, 4]) (flux := [some 7]) (err := [some 1]) (mjd := [some 5]) 5
    ⟨by simp, by intro c hc; cases hc; simp⟩ rfl rfl rfl (by simp) rfl rfl rfl (by simp) ⟨1, rfl, by norm_num⟩

/-- Every column of the returned table has an entry for every object, and every column of the observations one for each. -/
theorem frame_wf {isBand : Bool} {ev : Heap ℝ σ → PNode ℝ σ → SurveyArg → List ℝ → List Name → SState ℝ → σ → Except Err (List ℝ × σ)} {draw : σ → ℝ × σ} {H : Heap ℝ σ} {root : NodeId} {objs : List NodeId} {n : Int} {args : List SurveyArg}
    {saveCols paramCols : List Name} {offset : Option (List (Option ℝ))} {w : σ} {out : Outcome σ}
    (h : simulateFullWith isBand ev draw H root objs n args saveCols paramCols offset w = .ok out) : PostSpec.WF (resultFrame out) := by
  have hcols := (nested_cols h).2
  obtain ⟨run, nd, table, states, res, table', hn, hsp, hsm, hnd, hp, hsim, hnest, hno, hfr⟩ := run_parts h
  obtain ⟨hft, f1⟩ := frame_ok hfr
  refine ⟨?_, ?_⟩
  · intro q hq
    obtain ⟨q', hq', rfl⟩ := List.mem_map.1 hq
    show (q'.2.map ofRCell).length = ((List.range out.sampled.numSamples).map Int.ofNat).length
    rw [List.length_map, List.length_map, List.length_range, hsm]
    exact f1 _ (hft ▸ hq')
  · intro c hc
    cases hc
    refine ⟨by simp [resultFrame], ?_⟩
    intro q hq
    obtain ⟨q', hq', rfl⟩ := List.mem_map.1 hq
    dsimp only
    cases hg : out.nested.cols.get? q'.1 with
    | none => exact absurd (List.mem_map_of_mem hq') ((Dict.get?_eq_none_iff _ _).1 hg)
    | some l =>
      have := hcols _ (Dict.mem_of_get? hg)
      rw [List.length_flatMap]
      congr 1
      refine List.map_congr_left fun k _ => ?_
      rw [List.length_map, lightcurve_length hg this]


theorem keepIf_get {β : Type} (b : Nat → Bool) : ∀ (l : List β) (s p : Nat),
    (keepIf ((List.range' s l.length).map b) l)[p]? = (((List.range' s l.length).filter b)[p]?).bind fun k => l[k - s]?
  | [], s, p => by simp [keepIf]
  | x :: l, s, p => by
    simp only [List.length_cons, List.range'_succ, List.map_cons, List.filter_cons]
    have ih := keepIf_get b l (s + 1)
    have hsub : ∀ p : Nat, ((((List.range' (s + 1) l.length).filter b)[p]?).bind fun k => l[k - (s + 1)]?) = (((List.range' (s + 1) l.length).filter b)[p]?).bind fun k => (x :: l)[k - s]? := by
      intro p
      cases hg : ((List.range' (s + 1) l.length).filter b)[p]? with
      | none => rfl
      | some k =>
        have hk := (List.mem_range'_1.1 (List.mem_filter.1 (List.mem_of_getElem? hg)).1).1
        simp only [Option.bind_some]
        rw [show k - s = (k - (s + 1)) + 1 by omega, List.getElem?_cons_succ]
    by_cases hb : b s = true
    · rw [hb, if_pos rfl]
      unfold keepIf
      cases p with
      | zero => simp
      | succ p => rw [List.getElem?_cons_succ, List.getElem?_cons_succ, ih p, hsub]
    · rw [if_neg hb]
      rw [Bool.not_eq_true] at hb
      rw [hb]
      unfold keepIf
      rw [ih p, hsub]

/-- C142. Dropping the objects without observations from the returned table keeps exactly the objects with some, in order and with their ids as labels, each with all its
columns and the number of its observations. -/
theorem C142_drop {isBand : Bool} {ev : Heap ℝ σ → PNode ℝ σ → SurveyArg → List ℝ → List Name → SState ℝ → σ → Except Err (List ℝ × σ)} {draw : σ → ℝ × σ} {H : Heap ℝ σ} {root : NodeId} {objs : List NodeId} {n : Int} {args : List SurveyArg}
    {saveCols paramCols : List Name} {offset : Option (List (Option ℝ))} {w : σ} {out : Outcome σ}
    (h : simulateFullWith isBand ev draw H root objs n args saveCols paramCols offset w = .ok out) :
    ∃ r', dropEmpty (resultFrame out) = .ok r' ∧
      r'.labels = ((List.range out.sampled.numSamples).filter fun k => decide (0 < (lightcurve out.nested k "flux".toList).length)).map Int.ofNat ∧
      (∀ (p k : Nat), r'.labels[p]? = some (k : Int) → entries r' p = some (lightcurve out.nested k "flux".toList).length ∧
        ∀ name c, out.table.get? name = some c → ∃ c', r'.cols.get? name = some c' ∧ c'[p]? = (c[k]?).map ofRCell) ∧
      r'.lc.map (·.flat) = (resultFrame out).lc.map (·.flat) := by
  have hwf := frame_wf h
  obtain ⟨lc, hlc, hcounts, _⟩ := frame_lc out
  obtain ⟨l, hl, hlen⟩ := (nested_cols h).1 "flux".toList (by decide)
  obtain ⟨r', lc', h1, h2, h3, h4, h5, h6, h7, h8⟩ := C72_drop_empty hwf hlc
  have hc : lc.counts = (List.range out.sampled.numSamples).map fun k => (lightcurve out.nested k "flux".toList).length := by
    rw [hcounts]
    exact List.map_congr_left fun k _ => (lightcurve_length hl hlen k).symm
  have hmask : (lc.counts.map fun n => decide (0 < n)) = (List.range' 0 out.sampled.numSamples).map fun k => decide (0 < (lightcurve out.nested k "flux".toList).length) := by
    rw [hc, List.map_map, List.range_eq_range']
    rfl
  have hr' : r' = (resultFrame out).select (lc.counts.map fun n => decide (0 < n)) := by
    unfold dropEmpty at h1
    rw [hlc] at h1
    exact (Except.ok.inj h1).symm
  have hget : ∀ {β : Type} (q : List β), q.length = out.sampled.numSamples → ∀ p : Nat, (keepIf (lc.counts.map fun n => decide (0 < n)) q)[p]? =
      (((List.range out.sampled.numSamples).filter fun k => decide (0 < (lightcurve out.nested k "flux".toList).length))[p]?).bind fun k => q[k]? := by
    intro β q hq p
    rw [hmask, ← hq, keepIf_get, List.range_eq_range']
    simp only [Nat.sub_zero]
  have hlab : r'.labels = ((List.range out.sampled.numSamples).filter fun k => decide (0 < (lightcurve out.nested k "flux".toList).length)).map Int.ofNat := by
    rw [hr']
    refine List.ext_getElem? fun p => ?_
    show (keepIf _ ((List.range out.sampled.numSamples).map Int.ofNat))[p]? = _
    rw [hget _ (by simp) p, List.getElem?_map]
    cases hg : ((List.range out.sampled.numSamples).filter fun k => decide (0 < (lightcurve out.nested k "flux".toList).length))[p]? with
    | none => rfl
    | some k =>
      have hk := List.mem_range.1 (List.mem_filter.1 (List.mem_of_getElem? hg)).1
      rw [Option.bind_some, List.getElem?_map, List.getElem?_range hk]
  refine ⟨r', h1, hlab, ?_, by rw [h2, hlc, Option.map_some, Option.map_some, h3]⟩
  intro p k hp
  rw [hlab, List.getElem?_map] at hp
  cases hg : ((List.range out.sampled.numSamples).filter fun k => decide (0 < (lightcurve out.nested k "flux".toList).length))[p]? with
  | none => rw [hg] at hp; cases hp
  | some k' =>
    rw [hg, Option.map_some, Option.some.injEq] at hp
    have hkk : k' = k := Int.ofNat.inj hp
    subst hkk
    have hk := List.mem_range.1 (List.mem_filter.1 (List.mem_of_getElem? hg)).1
    refine ⟨?_, ?_⟩
    · have : r'.lc.map (·.counts) = some (keepIf (lc.counts.map fun n => decide (0 < n)) lc.counts) := by
        rw [hr']
        unfold NFrame.select
        rw [hlc]
        rfl
      rw [h2, Option.map_some, Option.some.injEq] at this
      unfold entries
      rw [h2, Option.bind_some, this, hget _ (by rw [hc]; simp) p, hg, Option.bind_some, hc, List.getElem?_map, List.getElem?_range hk]
      rfl
    · intro name c hcn
      have hcol : (resultFrame out).cols.get? name = some (c.map ofRCell) := by
        show Dict.get? (out.table.map fun q => (q.1, q.2.map ofRCell)) _ = _
        revert hcn
        generalize out.table = T
        induction T with
        | nil => intro h; cases h
        | cons q T ih =>
          obtain ⟨a, b⟩ := q
          simp only [List.map_cons, Dict.get?_cons]
          intro h
          split
          · rename_i e; rw [if_pos e] at h; cases h; rfl
          · rename_i e; rw [if_neg e] at h; exact ih h
      have hlen' := hwf.cols _ (Dict.mem_of_get? hcol)
      refine ⟨keepIf (lc.counts.map fun n => decide (0 < n)) (c.map ofRCell), ?_, ?_⟩
      · rw [hr']
        show Dict.get? ((resultFrame out).cols.map fun q => (q.1, keepIf _ q.2)) _ = _
        revert hcol
        generalize (resultFrame out).cols = T
        induction T with
        | nil => intro h; cases h
        | cons q T ih =>
          obtain ⟨a, b⟩ := q
          simp only [List.map_cons, Dict.get?_cons]
          intro h
          split
          · rename_i e; rw [if_pos e] at h; cases h; rfl
          · rename_i e; rw [if_neg e] at h; exact ih h
      · rw [hget _ (by simpa [resultFrame] using hlen') p, hg, Option.bind_some, List.getElem?_map]

/-- A simulation of two objects with two surveys, analysed. -/
example (draw : Nat → ℝ × Nat) : ∃ out r, simulateFull DirectProps.flat5 [] draw [exNode none []] 0 2 [EndToEndProps.lsstArg, EndToEndProps.lsstArg] [] [] (some [some 1, none]) 4 = .ok out ∧
    augmentNested (resultFrame out) 5 = .ok r ∧ r.labels = [0, 1] := by
  obtain ⟨out, ho, _, hg, hob⟩ := RecordedProps.ex_run draw
  have harg : ∀ a ∈ [EndToEndProps.lsstArg, EndToEndProps.lsstArg], a = EndToEndProps.lsstArg := by intro a ha; simpa using ha
  obtain ⟨nd, r, _, h1, h2, _⟩ := C142_detections_partial ex_graph ex_physical (fun a _ => BandFlux a.group fun _ _ => 10) (by simp) (by simp) (by simp)
    (by intro a ha; rw [harg a ha]; exact EndToEndProps.lsst_built) (by intro a ha; rw [harg a ha]; exact ⟨1, rfl, by norm_num, by norm_num⟩) (by simp) ho
    (fun nd _ => EndToEndProps.sized_model _ _) (by
      intro nd st k a h1 h2 h3 h4
      rw [hg] at h1
      cases h1
      refine EndToEndProps.fluxes_of (EndToEndProps.observes_in (hob st k h2 h3) a.group) ?_
      rw [harg a h4]
      exact EndToEndProps.gGroup_grid) 5
  exact ⟨out, r, ho, h1, by rw [h2]; rfl⟩

end LCL.AnalyseProps
