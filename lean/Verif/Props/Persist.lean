import Verif.Lemmas.Kernel
import Verif.Spec.Persist
import Verif.Props.ObsTable

/-!
# Properties C101 and C102: saving and loading observation tables
-/

namespace LCL.PersistProps
open LCL LCL.ObsSpec LCL.ObsLemmas LCL.ObsTable LCL.ObsTableProps LCL.PersistSpec

/-! ## The survey values -/

theorem putAll_nodup (d : Dict Name SVal) : ∀ (a : Dict Name SVal), a.keys.Nodup → (putAll a d).keys.Nodup := by
  unfold putAll
  induction d with
  | nil => intro a h; exact h
  | cons q d ih => intro a h; exact ih _ (Dict.nodup_set h _ _)

theorem putAll_get (d : Dict Name SVal) (hd : d.keys.Nodup) : ∀ (a : Dict Name SVal) (k : Name),
    (putAll a d).get? k = match d.get? k with | some v => some v | none => a.get? k := by
  unfold putAll
  induction d with
  | nil => intro a k; rfl
  | cons q d ih =>
    intro a k
    obtain ⟨c, v⟩ := q
    simp only [Dict.keys, List.map_cons, List.nodup_cons] at hd
    rw [List.foldl_cons, ih hd.2, Dict.get?_cons, Dict.get?_set]
    by_cases hck : c = k
    · subst hck
      have : Dict.get? d c = none := (Dict.get?_eq_none_iff _ _).2 hd.1
      simp [this]
    · simp [hck]

theorem putAll_keys (d : Dict Name SVal) : ∀ (a : Dict Name SVal) (k : Name), a.get? k ≠ none → (putAll a d).get? k ≠ none := by
  unfold putAll
  induction d with
  | nil => intro a k h; exact h
  | cons q d ih =>
    intro a k h
    rw [List.foldl_cons]
    apply ih
    rw [Dict.get?_set]
    split
    · simp
    · exact h

theorem merge_nodup {d kw : Dict Name SVal} {attrs : Option (Dict Name SVal)} (hd : d.keys.Nodup) : (mergeSurvey d attrs kw).keys.Nodup := by
  unfold mergeSurvey
  apply putAll_nodup
  cases attrs with
  | none => exact hd
  | some m => exact putAll_nodup m _ hd

theorem merge_keys {d kw : Dict Name SVal} {attrs : Option (Dict Name SVal)} {k : Name} (h : d.get? k ≠ none) : (mergeSurvey d attrs kw).get? k ≠ none := by
  unfold mergeSurvey
  apply putAll_keys
  cases attrs with
  | none => exact h
  | some m => exact putAll_keys m _ _ h

/-! ## What every table of a class satisfies -/

/-- The invariant of the tables of a class. -/
structure Good (C : TableClass) (t : ObsTable) : Prop where
  wf : WF t
  tree : buildTree t.cols = .ok t.tree
  required : ∀ c ∈ C.required, c ∈ t.cols.keys
  filters : ∃ fs, uniqueFilters t.cols = .ok fs
  survey : t.survey.keys.Nodup
  defaults : ∀ k, C.defaults.get? k ≠ none → t.survey.get? k ≠ none

theorem numCol_congr {a b : Dict Name (List Cell)} {n : Name} (h : a.get? n = b.get? n) : numCol a n = numCol b n := by
  unfold numCol; rw [h]

theorem buildTree_congr {a b : Dict Name (List Cell)} (h1 : a.get? "ra".toList = b.get? "ra".toList) (h2 : a.get? "dec".toList = b.get? "dec".toList) :
    buildTree a = buildTree b := by
  unfold buildTree
  rw [numCol_congr h1, numCol_congr h2]

theorem filters_congr {a b : Dict Name (List Cell)} (h : a.get? "filter".toList = b.get? "filter".toList) : uniqueFilters a = uniqueFilters b := by
  unfold uniqueFilters; rw [h]

theorem mapM_keep {c : List Cell} : ∀ {m : List Bool} {l : List Name}, c.mapM Cell.str? = .ok l → ∃ l', (keep m c).mapM Cell.str? = .ok l' := by
  induction c with
  | nil =>
    intro m l _
    refine ⟨[], ?_⟩
    cases m with
    | nil => rfl
    | cons b m => cases b <;> rfl
  | cons x c ih =>
    intro m l h
    rw [List.mapM_cons] at h
    cases hx : x.str? with
    | error e => rw [hx] at h; cases h
    | ok y =>
      rw [hx] at h
      cases hc : c.mapM Cell.str? with
      | error e => rw [hc] at h; cases h
      | ok ys =>
        cases m with
        | nil => exact ⟨[], rfl⟩
        | cons b m =>
          obtain ⟨l', hl'⟩ := ih (m := m) hc
          cases b with
          | true =>
            refine ⟨y :: l', ?_⟩
            change (x :: keep m c).mapM Cell.str? = _
            rw [List.mapM_cons, hx, hl']; rfl
          | false => exact ⟨l', hl'⟩

/-- What the constructor does. -/
theorem init_spec {C : TableClass} (hC : SoundClass C) {cols : Dict Name (List Cell)} {labels : List Int} {colmap : Dict Name Name} {survey : Dict Name SVal} {fp t}
    (h : ObsTable.init C.required C.assignZp cols labels colmap survey fp = .ok t) :
    ∃ nm inv, remap cols.keys colmap [] [] = .ok (nm, inv) ∧ (∀ c ∈ C.required, c ∈ (rename nm cols).keys) ∧
      uniqueFilters (rename nm cols) = .ok t.filters ∧ buildTree t.cols = .ok t.tree ∧ t.labels = labels ∧ t.survey = survey ∧ t.footprint = fp ∧
      t.invColmap = inv ∧ (t.cols = rename nm cols ∨ ∃ l : List Cell, l.length = labels.length ∧ t.cols = (rename nm cols).set "zp".toList l) := by
  unfold ObsTable.init at h
  cases hr : remap cols.keys colmap [] [] with
  | error e => rw [hr] at h; cases h
  | ok p =>
    obtain ⟨nm, inv⟩ := p
    rw [hr] at h
    simp only at h
    split at h
    · rename_i hall
      cases hf : uniqueFilters (rename nm cols) with
      | error e => rw [hf] at h; cases h
      | ok fs =>
        rw [hf] at h
        simp only at h
        generalize hz : (if ObsTable.contains ⟨rename nm cols, labels, inv, survey, fs, [], fp⟩ "zp".toList = true then
          Except.ok (⟨rename nm cols, labels, inv, survey, fs, [], fp⟩ : ObsTable) else C.assignZp ⟨rename nm cols, labels, inv, survey, fs, [], fp⟩) = Z at h
        cases Z with
        | error e => cases h
        | ok u =>
          simp only at h
          cases hb : buildTree u.cols with
          | error e => rw [hb] at h; cases h
          | ok tree =>
            rw [hb] at h
            cases h
            refine ⟨nm, inv, rfl, fun c hc => (Dict.has_iff _ _).1 (List.all_eq_true.1 hall c hc), ?_⟩
            have hu : u = ⟨rename nm cols, labels, inv, survey, fs, [], fp⟩ ∨ ∃ l : List Cell, l.length = labels.length ∧
                u = ⟨(rename nm cols).set "zp".toList l, labels, inv, survey, fs, [], fp⟩ := by
              split at hz
              · cases hz; exact Or.inl rfl
              · rcases hC.1 _ _ hz with h | ⟨l, h1, h2⟩
                · exact Or.inl h
                · exact Or.inr ⟨l, h1, h2⟩
            rcases hu with rfl | ⟨l, h1, rfl⟩
            · exact ⟨hf, hb, rfl, rfl, rfl, rfl, Or.inl rfl⟩
            · exact ⟨hf, hb, rfl, rfl, rfl, rfl, Or.inr ⟨l, h1, rfl⟩⟩
    · cases h

theorem made_good {C : TableClass} (hC : SoundClass C) {t : ObsTable} (h : Made C t) : Good C t := by
  induction h with
  | @new f colmap kw fp t hlen hnd hmap h =>
    unfold construct at h
    obtain ⟨nm, inv, h1, h2, h3, h4, h5, h6, h7, h8, h9⟩ := init_spec hC h
    have hmn : (chosenMap C colmap).keys.Nodup := by
      cases colmap with
      | none => exact hC.2.2
      | some m => exact hmap m rfl
    have hnodup := rename_nodup hnd hmn h1
    have hlenR : ∀ q ∈ rename nm f.cols, q.2.length = f.labels.length := by
      intro q hq
      obtain ⟨x, hx, rfl⟩ := List.mem_map.1 hq
      exact hlen x hx
    have hwf0 : WF { t with cols := rename nm f.cols } := ⟨by intro q hq; rw [hlenR q hq]; unfold ObsTable.len; rw [h5], hnodup⟩
    refine ⟨?_, h4, ?_, ?_, ?_, ?_⟩
    · rcases h9 with h9 | ⟨l, hl, h9⟩
      · have : t = { t with cols := rename nm f.cols } := by cases t; simp_all
        rw [this]; exact hwf0
      · have := WF_set hwf0 (name := "zp".toList) (l := l) (by unfold ObsTable.len; rw [h5]; exact hl)
        have e : t = { t with cols := (rename nm f.cols).set "zp".toList l } := by cases t; simp_all
        rw [e]; exact this
    · intro c hc
      rcases h9 with h9 | ⟨l, hl, h9⟩
      · rw [h9]; exact h2 c hc
      · rw [h9, Dict.mem_keys_set]; exact Or.inr (h2 c hc)
    · refine ⟨t.filters, ?_⟩
      rw [← h3]
      rcases h9 with h9 | ⟨l, hl, h9⟩
      · rw [h9]
      · apply filters_congr
        rw [h9, Dict.get?_set, if_neg (by decide)]
    · rw [h6]; exact merge_nodup hC.2.1
    · intro k hk; rw [h6]; exact merge_keys hk
  | @add t name v o t' _ hra hdec hfil h ih =>
    obtain ⟨_, l, hl, rfl, _⟩ := addColumn_ok h
    refine ⟨WF_set ih.wf hl, ?_, ?_, ?_, ih.survey, ih.defaults⟩
    · rw [← ih.tree]
      apply buildTree_congr
      · rw [Dict.get?_set, if_neg hra]
      · rw [Dict.get?_set, if_neg hdec]
    · intro c hc
      rw [Dict.mem_keys_set]; exact Or.inr (ih.required c hc)
    · obtain ⟨fs, hfs⟩ := ih.filters
      refine ⟨fs, ?_⟩
      rw [← hfs]
      apply filters_congr
      rw [Dict.get?_set, if_neg hfil]
  | @filter t rows t' _ h ih =>
    obtain ⟨m, hm, h1, h2, h3, h4, h5, h6, h7⟩ := filterRows_ok h
    have hml := rowMask_length hm
    have hkeys : t'.cols.keys = t.cols.keys := by rw [h1]; simp [Dict.keys, List.map_map, Function.comp_def]
    refine ⟨⟨?_, by rw [hkeys]; exact ih.wf.2⟩, h3, by rw [hkeys]; exact ih.required, ?_, by rw [h5]; exact ih.survey, by rw [h5]; exact ih.defaults⟩
    · intro q hq
      rw [h1] at hq
      obtain ⟨x, hx, rfl⟩ := List.mem_map.1 hq
      have hx' := ih.wf.1 x hx
      unfold ObsTable.len
      rw [h2, keep_length _ _ (by rw [hml, ← hx']), keep_length _ _ (by rw [hml]; rfl)]
    · obtain ⟨fs, hfs⟩ := ih.filters
      unfold uniqueFilters at hfs ⊢
      rw [h1, get?_mapVals]
      cases hg : t.cols.get? "filter".toList with
      | none => exact ⟨[], rfl⟩
      | some c =>
        rw [hg] at hfs
        simp only at hfs
        cases hs : c.mapM Cell.str? with
        | error e => rw [hs] at hfs; cases hfs
        | ok l =>
          obtain ⟨l', hl'⟩ := mapM_keep (m := m) hs
          simp only [Option.map_some, hl']
          exact ⟨_, rfl⟩
  | @radius t x t' _ h ih =>
    unfold setRadius at h
    split at h
    · cases h
    · cases h
      refine ⟨ih.wf, ih.tree, ih.required, ih.filters, Dict.nodup_set ih.survey _ _, ?_⟩
      intro k hk
      rw [Dict.get?_set]
      split
      · simp
      · exact ih.defaults k hk
  | clear _ ih => exact ⟨ih.wf, ih.tree, ih.required, ih.filters, ih.survey, ih.defaults⟩

/-! ## Reading a table back -/

theorem remap_id (columns : List Name) (colmap : List (Name × Name)) (h : ∀ k v, (k, v) ∈ colmap → v ∈ columns → k = v) :
    ∀ (nm inv : Dict Name Name), (∀ v k, nm.get? v = some k → k = v) → ∃ nm' inv', remap columns colmap nm inv = .ok (nm', inv') ∧ ∀ v k, nm'.get? v = some k → k = v := by
  induction colmap with
  | nil => intro nm inv hn; exact ⟨nm, inv, rfl, hn⟩
  | cons q colmap ih =>
    intro nm inv hn
    obtain ⟨k, v⟩ := q
    have ih' := ih (fun a b hab => h a b (List.mem_cons_of_mem _ hab))
    unfold remap
    by_cases hv : v ∈ columns
    · have hkv : k = v := h k v (by simp) hv
      rw [if_pos hv, if_neg (by rintro ⟨_, hne⟩; exact hne hkv)]
      apply ih'
      intro a b hab
      rw [Dict.get?_set] at hab
      split at hab
      · rename_i hva; cases hab; rw [← hva]; exact hkv
      · exact hn a b hab
    · rw [if_neg hv]
      exact ih' nm _ hn

theorem rename_id {nm : Dict Name Name} (h : ∀ v k, nm.get? v = some k → k = v) (cols : Dict Name (List Cell)) : rename nm cols = cols := by
  unfold rename
  conv_rhs => rw [← List.map_id cols]
  apply List.map_congr_left
  intro q _
  cases hq : nm.get? q.1 with
  | none => rfl
  | some k => rw [h _ _ hq]; rfl

/-- Reading columns that need no renaming. -/
theorem construct_plain {C : TableClass} {f : Frame} {colmap : Option (Dict Name Name)} {kw : Dict Name SVal} {fp}
    (hclash : ∀ k v, (k, v) ∈ (chosenMap C colmap) → v ∈ f.cols.keys → k = v)
    (hzp : (∀ u, C.assignZp u = .ok u) ∨ "zp".toList ∈ f.cols.keys) (hreq : ∀ c ∈ C.required, c ∈ f.cols.keys) {fs : List Name}
    (hfs : uniqueFilters f.cols = .ok fs) {tree} (htree : buildTree f.cols = .ok tree) :
    ∃ t, construct C f colmap kw fp = .ok t ∧ t.cols = f.cols ∧ t.labels = f.labels ∧ t.survey = mergeSurvey C.defaults f.attrs kw ∧ t.footprint = fp ∧
      t.filters = fs ∧ t.tree = tree := by
  obtain ⟨nm, inv, h1, h2⟩ := remap_id f.cols.keys _ hclash [] [] (by intro v k h; cases h)
  have hr := rename_id h2 f.cols
  unfold construct ObsTable.init
  rw [h1]
  simp only
  rw [hr, if_pos (by rw [List.all_eq_true]; intro c hc; exact (Dict.has_iff _ _).2 (hreq c hc)), hfs]
  simp only
  have hz : (if ObsTable.contains ⟨f.cols, f.labels, inv, mergeSurvey C.defaults f.attrs kw, fs, [], fp⟩ "zp".toList = true then
      Except.ok (⟨f.cols, f.labels, inv, mergeSurvey C.defaults f.attrs kw, fs, [], fp⟩ : ObsTable) else
      C.assignZp ⟨f.cols, f.labels, inv, mergeSurvey C.defaults f.attrs kw, fs, [], fp⟩) = .ok ⟨f.cols, f.labels, inv, mergeSurvey C.defaults f.attrs kw, fs, [], fp⟩ := by
    rcases hzp with h | h
    · rw [h]; simp
    · rw [if_pos]
      unfold ObsTable.contains
      rw [if_pos ((Dict.has_iff _ _).2 h)]
  rw [hz]
  simp only
  rw [htree]
  exact ⟨_, rfl, rfl, rfl, rfl, rfl, rfl, rfl⟩

/-- Searches look at the times, the tree, the radius and the footprint. -/
theorem search_plain {t u : ObsTable} (h1 : t.cols.get? "time".toList = u.cols.get? "time".toList) (h2 : t.radius = u.radius) (h3 : t.footprint = none)
    (h4 : u.footprint = none) (h5 : t.tree = u.tree) (ra dec : QArg) (radius : Option ℝ) (tmin tmax : TArg) :
    t.rangeSearch ra dec radius tmin tmax = u.rangeSearch ra dec radius tmin tmax := by
  unfold rangeSearch timeStep footprintStep
  rw [numCol_congr h1, h2, h3, h4, h5]

/-! ## C101 -/

/-- C101. A table of any class, after any history of operations, written to a parquet file and read again has the same columns, the same index
labels and the same survey values, lists the filters of its rows, and answers every search as before (if it has no detector footprint, which is not saved).
Proved for tables in which reading renames no column and derives no zero points (`C101_clash_counterexample`, `C101_names_counterexample`,
`C101_footprint_counterexample` for the rest). -/
theorem C101_roundtrip_partial {C : TableClass} (hC : SoundClass C) {t : ObsTable} (ht : Made C t) (hclash : NoClash C t.cols.keys) (hzp : ZpSettled C t)
    (file : Option Frame) (overwrite : Bool) (hfile : file = none ∨ overwrite = true) :
    (writeParquet file t overwrite).2 = none ∧ ∃ t', fromParquet C (writeParquet file t overwrite).1 = .ok t' ∧
      t'.cols = t.cols ∧ t'.labels = t.labels ∧ (∀ k, t'.survey.get? k = t.survey.get? k) ∧ uniqueFilters t.cols = .ok t'.filters ∧ t'.footprint = none ∧
      (t.footprint = none → ∀ ra dec radius tmin tmax, t'.rangeSearch ra dec radius tmin tmax = t.rangeSearch ra dec radius tmin tmax) ∧ Made C t' := by
  have g := made_good hC ht
  obtain ⟨fs, hfs⟩ := g.filters
  have hw : writeParquet file t overwrite = (some ⟨t.cols, t.labels, some t.survey⟩, none) := by
    unfold writeParquet
    rw [if_neg]
    rintro ⟨h1, h2⟩
    rcases hfile with h | h
    · rw [h] at h2; cases h2
    · rw [h] at h1; cases h1
  rw [hw]
  refine ⟨rfl, ?_⟩
  have hcl : ∀ k v, (k, v) ∈ (chosenMap C none) → v ∈ t.cols.keys → k = v := hclash
  obtain ⟨t', h1, h2, h3, h4, h5, h6, h7⟩ := construct_plain (C := C) (f := ⟨t.cols, t.labels, some t.survey⟩) (colmap := none) (kw := []) (fp := none) hcl hzp g.required hfs g.tree
  have hsv : ∀ k, t'.survey.get? k = t.survey.get? k := by
    intro k
    rw [h4]
    change (putAll C.defaults t.survey).get? k = _
    rw [putAll_get _ g.survey]
    cases hk : t.survey.get? k with
    | some v => rfl
    | none =>
      simp only
      by_contra hne
      exact g.defaults k hne hk
  refine ⟨t', h1, h2, h3, hsv, by rw [h6]; exact hfs, h5, ?_, ?_⟩
  · intro hfp ra dec radius tmin tmax
    apply search_plain
    · rw [h2]
    · unfold ObsTable.radius; rw [hsv]
    · exact h5
    · exact hfp
    · exact h7
  · exact Made.new (f := ⟨t.cols, t.labels, some t.survey⟩) (fun q hq => g.wf.1 q hq) g.wf.2 (by intro m h; cases h) h1

/-- C101: without `overwrite` an existing file is refused and kept; a missing file cannot be read. -/
theorem C101_guard (C : TableClass) (f : Frame) (t : ObsTable) :
    writeParquet (some f) t false = (some f, some .osError) ∧ fromParquet C none = .error .fileNotFound := ⟨rfl, rfl⟩

/-! ## C102 -/

/-- C102. A table of any class, after any history of operations, written to a database and read again (with the given keyword arguments) has all its
columns and answers every search as before if the radius is the same (with row numbers, not labels); the file's other tables are not touched. Proved for tables
whose column names differ even without case, none of them `index`; what is lost is in `C102_survey_counterexample` and `C102_cycles_counterexample`. -/
theorem C102_roundtrip_partial {C : TableClass} (hC : SoundClass C) {t : ObsTable} (ht : Made C t) (hclash : NoClash C ("index".toList :: t.cols.keys)) (hzp : ZpSettled C t)
    (hnames : (("index".toList :: t.cols.keys).map lowered).Nodup) (file : Option Database) (table : Name) (overwrite : Bool)
    (hfile : overwrite = true ∨ ∀ db, file = some db → table ∉ db.keys) (kw : Dict Name SVal) (fp : Option (ℝ → ℝ → ℝ → ℝ → Option ℝ → Bool)) :
    (writeDb file t table overwrite).2 = none ∧
    (∀ other, other ≠ table → ((writeDb file t table overwrite).1.getD []).get? other = (file.getD []).get? other) ∧
    ∃ t', fromDb C (writeDb file t table overwrite).1 table none kw fp = .ok t' ∧
      (∀ c, c ≠ "index".toList → t'.cols.get? c = t.cols.get? c) ∧
      t'.cols.get? "index".toList = some (t.labels.map fun (i : Int) => Cell.num (i : ℝ)) ∧
      t'.labels = (List.range t.len).map (fun (i : Nat) => (i : Int)) ∧ t'.survey = mergeSurvey C.defaults none kw ∧ t'.footprint = fp ∧
      (t.footprint = none → fp = none → t'.radius = t.radius → ∀ ra dec radius tmin tmax,
        t'.rangeSearch ra dec radius tmin tmax = t.rangeSearch ra dec radius tmin tmax) ∧ Made C t' := by
  have g := made_good hC ht
  obtain ⟨fs, hfs⟩ := g.filters
  have hnot : "index".toList ∉ t.cols.keys := by
    intro h
    rw [List.map_cons, List.nodup_cons] at hnames
    exact hnames.1 (List.mem_map.2 ⟨_, h, rfl⟩)
  have hidx : indexName t.cols = "index".toList := by
    unfold indexName
    rw [if_neg]
    intro h
    exact hnot ((Dict.has_iff _ _).1 h)
  have hw : writeDb file t table overwrite = (some (((file.getD []).erase table).set table (("index".toList, t.labels.map fun (i : Int) => Cell.num (i : ℝ)) :: t.cols)), none) := by
    unfold writeDb
    dsimp only
    rw [hidx, if_neg, if_pos]
    · exact hnames
    · rintro ⟨h1, h2⟩
      rcases hfile with h | h
      · rw [h] at h2; cases h2
      · cases file with
        | none => cases h1
        | some db => exact h db rfl ((Dict.has_iff _ _).1 h1)
  rw [hw]
  refine ⟨rfl, ?_, ?_⟩
  · intro other ho
    change Dict.get? (Dict.set _ _ _) other = _
    rw [Dict.get?_set, if_neg (fun h => ho h.symm)]
    generalize file.getD [] = db
    induction db with
    | nil => rfl
    | cons q db ih =>
      obtain ⟨k, v⟩ := q
      unfold Dict.erase
      split
      · rename_i h; rw [Dict.get?_cons, if_neg (by rw [h]; exact fun e => ho e.symm)]
      · rw [Dict.get?_cons, Dict.get?_cons, ih]
  · unfold fromDb
    simp only [Dict.get?_set_self]
    have hne : ∀ c : Name, c ≠ "index".toList → Dict.get? (("index".toList, t.labels.map fun (i : Int) => Cell.num (i : ℝ)) :: t.cols) c = t.cols.get? c := by
      intro c hc
      rw [Dict.get?_cons, if_neg (fun h => hc h.symm)]
    have hcl : ∀ k v, (k, v) ∈ (chosenMap C none) →
        v ∈ Dict.keys (("index".toList, t.labels.map fun (i : Int) => Cell.num (i : ℝ)) :: t.cols) → k = v := hclash
    have hlab : rangeLabels (("index".toList, t.labels.map fun (i : Int) => Cell.num (i : ℝ)) :: t.cols) = (List.range t.len).map (fun (i : Nat) => (i : Int)) := by
      unfold rangeLabels ObsTable.len
      simp
    obtain ⟨t', h1, h2, h3, h4, h5, h6, h7⟩ := construct_plain (C := C)
      (f := ⟨("index".toList, t.labels.map fun (i : Int) => Cell.num (i : ℝ)) :: t.cols, rangeLabels (("index".toList, t.labels.map fun (i : Int) => Cell.num (i : ℝ)) :: t.cols), none⟩)
      (colmap := none) (kw := kw) (fp := fp) hcl (hzp.imp id fun h => List.mem_cons_of_mem _ h) (fun c hc => List.mem_cons_of_mem _ (g.required c hc))
      (by rw [← hfs]; exact filters_congr (hne _ (by decide))) (by rw [← g.tree]; exact buildTree_congr (hne _ (by decide)) (hne _ (by decide)))
    refine ⟨t', h1, ?_, ?_, ?_, h4, h5, ?_, ?_⟩
    · intro c hc; rw [h2]; exact hne c hc
    · rw [h2]; rw [Dict.get?_cons, if_pos rfl]
    · rw [h3]; exact hlab
    · intro hfp hfp' hr ra dec radius tmin tmax
      apply search_plain
      · rw [h2]; exact hne _ (by decide)
      · exact hr
      · rw [h5]; exact hfp'
      · exact hfp
      · exact h7
    · refine Made.new (f := ⟨_, _, none⟩) (colmap := none) (kw := kw) (fp := fp) ?_ ?_ (by intro m h; cases h) h1
      · dsimp only
        rw [hlab]
        intro q hq
        rcases List.mem_cons.1 hq with rfl | hq
        · simp [ObsTable.len]
        · rw [g.wf.1 q hq]; simp
      · exact List.nodup_cons.2 ⟨hnot, g.wf.2⟩

/-- C102: without `overwrite` an existing table is refused and the file keeps it; missing files and tables cannot be read. -/
theorem C102_guard (C : TableClass) (db : Database) (t : ObsTable) (table : Name) (h : table ∈ db.keys) (colmap kw fp) :
    writeDb (some db) t table false = (some db, some .valueError) ∧
    fromDb C none table colmap kw fp = .error .fileNotFound ∧
    ∀ other, other ∉ db.keys → fromDb C (some db) other colmap kw fp = .error .valueError := by
  refine ⟨?_, rfl, ?_⟩
  · unfold writeDb
    dsimp only [Option.getD]
    rw [if_pos ⟨(Dict.has_iff _ _).2 h, rfl⟩]
  · intro other ho
    unfold fromDb
    dsimp only
    rw [(Dict.get?_eq_none_iff _ _).2 ho]

theorem erase_sub {ν : Type} (db : Dict Name ν) (k : Name) : List.Sublist (db.erase k) db := by
  induction db with
  | nil => exact List.Sublist.slnil
  | cons q db ih =>
    unfold Dict.erase
    split
    · exact List.sublist_cons_self _ _
    · exact ih.cons_cons _

/-- One cycle, precisely. -/
theorem db_step {C : TableClass} (hC : SoundClass C) {t : ObsTable} (ht : Made C t) (hclash : NoClash C (indexName t.cols :: t.cols.keys)) (hzp : ZpSettled C t)
    (hnames : ((indexName t.cols :: t.cols.keys).map lowered).Nodup) (hi : indexName t.cols ∉ ["ra".toList, "dec".toList, "filter".toList]) (file : Option Database) (table : Name) (kw : Dict Name SVal) :
    ∃ db t', writeDb file t table true = (some db, none) ∧ fromDb C (some db) table none kw none = .ok t' ∧
      t'.cols = (indexName t.cols, t.labels.map fun (i : Int) => Cell.num (i : ℝ)) :: t.cols ∧ Made C t' ∧
      ((file.getD []).keys.Nodup → db.keys.Nodup) := by
  have g := made_good hC ht
  obtain ⟨fs, hfs⟩ := g.filters
  simp only [List.mem_cons, List.not_mem_nil, or_false, not_or] at hi
  generalize hix : indexName t.cols = ix at *
  have hne : ∀ c : Name, c ≠ ix → Dict.get? ((ix, t.labels.map fun (i : Int) => Cell.num (i : ℝ)) :: t.cols) c = t.cols.get? c := by
    intro c hc
    rw [Dict.get?_cons, if_neg (fun h => hc h.symm)]
  have hw : writeDb file t table true = (some (((file.getD []).erase table).set table ((ix, t.labels.map fun (i : Int) => Cell.num (i : ℝ)) :: t.cols)), none) := by
    unfold writeDb
    dsimp only
    rw [hix, if_neg (by rintro ⟨_, h⟩; cases h), if_pos]
    exact hnames
  have hcl : ∀ k v, (k, v) ∈ (chosenMap C none) →
      v ∈ Dict.keys ((ix, t.labels.map fun (i : Int) => Cell.num (i : ℝ)) :: t.cols) → k = v := hclash
  obtain ⟨t', h1, h2, h3, h4, h5, h6, h7⟩ := construct_plain (C := C)
    (f := ⟨(ix, t.labels.map fun (i : Int) => Cell.num (i : ℝ)) :: t.cols, rangeLabels ((ix, t.labels.map fun (i : Int) => Cell.num (i : ℝ)) :: t.cols), none⟩)
    (colmap := none) (kw := kw) (fp := none) hcl (hzp.imp id fun h => List.mem_cons_of_mem _ h) (fun c hc => List.mem_cons_of_mem _ (g.required c hc))
    (by rw [← hfs]; exact filters_congr (hne _ (fun e => hi.2.2 e.symm))) (by rw [← g.tree]; exact buildTree_congr (hne _ (fun e => hi.1 e.symm)) (hne _ (fun e => hi.2.1 e.symm)))
  refine ⟨_, t', hw, ?_, h2, ?_, fun hn => Dict.nodup_set (((erase_sub _ _).map _).nodup hn) _ _⟩
  · unfold fromDb
    simp only [Dict.get?_set_self]
    exact h1
  · refine Made.new (f := ⟨_, _, none⟩) (colmap := none) (kw := kw) (fp := none) ?_ ?_ (by intro m h; cases h) h1
    · dsimp only [rangeLabels]
      intro q hq
      rcases List.mem_cons.1 hq with rfl | hq
      · simp
      · rw [g.wf.1 q hq]; simp [ObsTable.len]
    · refine List.nodup_cons.2 ⟨?_, g.wf.2⟩
      intro h
      rw [List.map_cons, List.nodup_cons] at hnames
      exact hnames.1 (List.mem_map.2 ⟨_, h, rfl⟩)

theorem erase_gone {ν : Type} {db : Dict Name ν} {k : Name} (h : db.keys.Nodup) : (db.erase k).get? k = none := by
  induction db with
  | nil => rfl
  | cons q db ih =>
    obtain ⟨c, v⟩ := q
    simp only [Dict.keys, List.map_cons, List.nodup_cons] at h
    unfold Dict.erase
    split
    · rename_i hc; subst hc; exact (Dict.get?_eq_none_iff _ _).2 h.1
    · rename_i hc; rw [Dict.get?_cons, if_neg hc]; exact ih h.2

/-- C102 fails for repeated cycles, for every table: each cycle adds a column for the index, and the third time the table is written this raises
`ValueError` and, since the caller asked to overwrite, the stored table is gone. -/
theorem C102_cycles_counterexample {C : TableClass} (hC : SoundClass C) {t : ObsTable} (ht : Made C t)
    (hclash : NoClash C ("level_0".toList :: "index".toList :: t.cols.keys)) (hzp : ZpSettled C t)
    (hnames : (("level_0".toList :: "index".toList :: t.cols.keys).map lowered).Nodup) (table : Name) (kw : Dict Name SVal) :
    ∃ f1 t1 f2 t2 f3, writeDb none t table true = (some f1, none) ∧ fromDb C (some f1) table none kw none = .ok t1 ∧
      "index".toList ∈ t1.cols.keys ∧
      writeDb (some f1) t1 table true = (some f2, none) ∧ fromDb C (some f2) table none kw none = .ok t2 ∧
      writeDb (some f2) t2 table true = (some f3, some .valueError) ∧
      fromDb C (some f3) table none kw none = .error .valueError := by
  have hn := hnames
  rw [List.map_cons, List.nodup_cons] at hn
  have hn2 := hn.2
  rw [List.map_cons, List.nodup_cons] at hn2
  have hnot : "index".toList ∉ t.cols.keys := fun h => hn2.1 (List.mem_map.2 ⟨_, h, rfl⟩)
  have hidx : indexName t.cols = "index".toList := by
    unfold indexName
    rw [if_neg]
    intro h
    exact hnot ((Dict.has_iff _ _).1 h)
  obtain ⟨f1, t1, a1, a2, a3, a4, a5⟩ := db_step hC ht (by rw [hidx]; intro k v hkv hv; exact hclash k v hkv (List.mem_cons_of_mem _ hv)) hzp
    (by rw [hidx]; exact hn.2) (by rw [hidx]; decide) none table kw
  rw [hidx] at a3
  have k1 : t1.cols.keys = "index".toList :: t.cols.keys := by rw [a3]; rfl
  have hidx1 : indexName t1.cols = "level_0".toList := by
    unfold indexName
    rw [if_pos]
    rw [Dict.has_iff, k1]; simp
  obtain ⟨f2, t2, b1, b2, b3, b4, b5⟩ := db_step hC a4 (by rw [hidx1, k1]; exact hclash)
    (hzp.imp id fun h => by rw [k1]; exact List.mem_cons_of_mem _ h) (by rw [hidx1, k1]; exact hnames) (by rw [hidx1]; decide) (some f1) table kw
  rw [hidx1] at b3
  have k2 : t2.cols.keys = "level_0".toList :: "index".toList :: t.cols.keys := by
    rw [b3]; change _ :: t1.cols.keys = _; rw [k1]
  have hidx2 : indexName t2.cols = "level_0".toList := by
    unfold indexName
    rw [if_pos]
    rw [Dict.has_iff, k2]; simp
  refine ⟨f1, t1, f2, t2, f2.erase table, a1, a2, by rw [k1]; simp, b1, b2, ?_, ?_⟩
  rotate_left
  · unfold fromDb
    dsimp only
    rw [erase_gone (b5 (a5 List.nodup_nil))]
  unfold writeDb
  dsimp only
  rw [hidx2, if_neg (by rintro ⟨_, h⟩; cases h), if_neg]
  · rfl
  · intro h
    have : Dict.keys (("level_0".toList, t2.labels.map fun (i : Int) => Cell.num (i : ℝ)) :: t2.cols) = "level_0".toList :: t2.cols.keys := rfl
    rw [this, k2, List.map_cons, List.nodup_cons] at h
    exact h.1 (by simp)

/-! ## Concrete tables -/

/-- One observation of (0, 0) at time 7. -/
def oneRow : Dict Name (List Cell) := [("ra".toList, [.num 0]), ("dec".toList, [.num 0]), ("time".toList, [.num 7])]

theorem baseSound : SoundClass baseClass := ⟨fun u u' h => by cases h; exact Or.inl rfl, by decide, by decide⟩

theorem oneRow_construct (kw : Dict Name SVal) (fp) : ∃ t, construct baseClass ⟨oneRow, [0], none⟩ none kw fp = .ok t ∧ t.cols = oneRow ∧ t.labels = [0] ∧
    t.survey = mergeSurvey baseClass.defaults none kw ∧ t.footprint = fp ∧ t.tree = [toCart 0 0] ∧ Made baseClass t := by
  obtain ⟨t, h1, h2, h3, h4, h5, h6, h7⟩ := construct_plain (C := baseClass) (f := ⟨oneRow, [0], none⟩) (colmap := none) (kw := kw) (fp := fp)
    (by intro k v h; cases h) (Or.inl fun u => rfl) (by decide) (fs := []) rfl (tree := [toCart 0 0]) rfl
  exact ⟨t, h1, h2, h3, h4, h5, h7, Made.new (by decide) (by decide) (by intro m h; cases h) h1⟩

/-- The hypotheses of C101 and C102 are met by a table of the base class, with a radius. -/
example : ∃ t, Made baseClass t ∧ SoundClass baseClass ∧ NoClash baseClass ("level_0".toList :: "index".toList :: t.cols.keys) ∧ ZpSettled baseClass t ∧
    (("level_0".toList :: "index".toList :: t.cols.keys).map lowered).Nodup ∧ t.radius = some 1 := by
  obtain ⟨t, h1, h2, h3, h4, h5, h6, h7⟩ := oneRow_construct [("radius".toList, .num 1)] none
  refine ⟨t, h7, baseSound, (by intro k v h; cases h), Or.inl fun u => rfl, by rw [h2]; decide, ?_⟩
  unfold ObsTable.radius
  rw [h4]
  rfl

/-- C101 fails for the detector footprint: it is not saved, and the table that is read back finds observations the original one excludes. -/
theorem C101_footprint_counterexample : ∃ t t', Made baseClass t ∧ fromParquet baseClass (writeParquet none t false).1 = .ok t' ∧
    t.rangeSearch (.scalar 0) (.scalar 0) (some 1) .none .none = .ok (.one []) ∧
    t'.rangeSearch (.scalar 0) (.scalar 0) (some 1) .none .none = .ok (.one [0]) := by
  obtain ⟨t, h1, h2, h3, h4, h5, h6, h7⟩ := oneRow_construct [] (some fun _ _ _ _ _ => false)
  obtain ⟨_, t', a1, a2, a3, a4, a5, a6, a7, a8⟩ := C101_roundtrip_partial baseSound h7 (by intro k v h; cases h) (Or.inl fun u => rfl) none false (Or.inl rfl)
  have g' := made_good baseSound a8
  have ht' : t'.tree = [toCart 0 0] := by
    have := g'.tree
    rw [a2, h2] at this
    have e : buildTree oneRow = .ok [toCart 0 0] := rfl
    rw [e] at this
    exact ((Except.ok.injEq _ _).mp this).symm
  refine ⟨t, t', h7, a1, ?_, ?_⟩
  · unfold rangeSearch
    have q : queryPoints (.scalar 0) (.scalar 0) = .ok [((0:ℝ), (0:ℝ))] := rfl
    rw [q]
    have hf : footprintStep t [((0:ℝ), (0:ℝ))] [[0]] = .ok [[]] := by
      unfold footprintStep
      rw [h5, h2]
      rfl
    simp only [List.map_cons, List.map_nil, h6]
    have ho : ((some 1 : Option ℝ) <|> t.radius) = some 1 := rfl
    rw [ho]
    simp only [ball_here, timeStep, TArg.isNone, and_self, if_true, hf]
    simp [QArg.isScalar]
  · unfold rangeSearch
    have q : queryPoints (.scalar 0) (.scalar 0) = .ok [((0:ℝ), (0:ℝ))] := rfl
    rw [q]
    have ho : ((some 1 : Option ℝ) <|> t'.radius) = some 1 := rfl
    simp only [List.map_cons, List.map_nil]
    rw [ho]
    simp only [ht', ball_here, timeStep, TArg.isNone, and_self, if_true, footprintStep, a6]
    simp [QArg.isScalar]

/-- C101 fails for the original names of a table of the base class with a column map: the map is not saved. -/
theorem C101_names_counterexample : ∃ t t', Made baseClass t ∧ fromParquet baseClass (writeParquet none t false).1 = .ok t' ∧
    t.getItem "mjd".toList = .ok [.num 7] ∧ t'.getItem "mjd".toList = .error .keyError := by
  have hm : Made baseClass ⟨[("ra".toList, [.num 0]), ("dec".toList, [.num 0]), ("time".toList, [.num 7])], [0], [("mjd".toList, "time".toList)],
      mergeSurvey baseClass.defaults none [], [], [toCart 0 0], none⟩ := by
    refine Made.new (f := ⟨mjdRow, [0], none⟩) (colmap := some [("time".toList, "mjd".toList)]) (kw := []) (fp := none) (by decide) (by decide)
      (by intro m h; cases h; decide) ?_
    rfl
  obtain ⟨_, t', a1, a2, a3, a4, a5, a6, a7, a8⟩ := C101_roundtrip_partial baseSound hm (by intro k v h; cases h) (Or.inl fun u => rfl) none false (Or.inl rfl)
  refine ⟨_, t', hm, a1, rfl, ?_⟩
  have hinv : t'.invColmap = [] := by
    obtain ⟨nm, inv, b1, b2, b3, b4, b5, b6, b7, b8, _⟩ := init_spec (C := baseClass) (cols := oneRow) (labels := [0]) (colmap := []) (survey := mergeSurvey baseClass.defaults (some (mergeSurvey baseClass.defaults none [])) []) (fp := none)
      (t := t') baseSound a1
    change remap _ [] [] [] = _ at b1
    cases b1
    exact b8
  unfold getItem
  rw [a2, hinv]
  rfl

/-- A class whose own column map calls the column `mjd` `time` (as `OpSim` and `ZTFObsTable` do with their names). -/
def mappedClass : TableClass := { baseClass with colmap := [("time".toList, "mjd".toList)] }

theorem mappedSound : SoundClass mappedClass := ⟨fun u u' h => by cases h; exact Or.inl rfl, by decide, by decide⟩

/-- C101 fails for a class with its own column map, when a column with an original name was added: the file is written, but cannot be read. -/
theorem C101_clash_counterexample : ∃ t t', Made mappedClass t ∧ t.addColumn "mjd".toList (.scalar (.num 5)) = .ok t' ∧ Made mappedClass t' ∧
    (writeParquet none t' false).2 = none ∧ fromParquet mappedClass (writeParquet none t' false).1 = .error .valueError := by
  have hm : Made mappedClass ⟨[("ra".toList, [.num 0]), ("dec".toList, [.num 0]), ("time".toList, [.num 7])], [0], [("mjd".toList, "time".toList)],
      mergeSurvey baseClass.defaults none [], [], [toCart 0 0], none⟩ :=
    Made.new (f := ⟨mjdRow, [0], none⟩) (colmap := none) (kw := []) (fp := none) (by decide) (by decide) (by intro m h; cases h) rfl
  exact ⟨_, _, hm, rfl, Made.add hm (name := "mjd".toList) (v := .scalar (.num 5)) (o := false) (by decide) (by decide) (by decide) rfl, rfl, rfl⟩

/-- C102 fails for the survey values: they are not saved. A table with a radius, read back, has none, and a search by the survey's radius raises. -/
theorem C102_survey_counterexample : ∃ t t', Made baseClass t ∧ t.radius = some 1 ∧
    fromDb baseClass (writeDb none t "observations".toList false).1 "observations".toList none [] none = .ok t' ∧ t'.radius = none ∧
    ∀ ra dec : ℝ, t'.rangeSearch (.scalar ra) (.scalar dec) none .none .none = .error .valueError := by
  obtain ⟨t, h1, h2, h3, h4, h5, h6, h7⟩ := oneRow_construct [("radius".toList, .num 1)] none
  obtain ⟨_, _, t', a1, a2, a3, a4, a5, a6, a7, a8⟩ := C102_roundtrip_partial baseSound h7 (by intro k v h; cases h) (Or.inl fun u => rfl) (by rw [h2]; decide)
    none "observations".toList false (Or.inr (by intro db h; cases h)) [] none
  have hr : t'.radius = none := by
    unfold ObsTable.radius
    rw [a5]
    rfl
  refine ⟨t, t', h7, by unfold ObsTable.radius; rw [h4]; rfl, a1, hr, ?_⟩
  intro ra dec
  unfold rangeSearch
  have q : queryPoints (.scalar ra) (.scalar dec) = .ok [(ra, dec)] := rfl
  rw [q, hr]
  rfl

/-- C102 fails for column names that differ in case only: the table is fine, writing it raises `ValueError`. -/
theorem C102_case_counterexample : ∃ t, Made baseClass t ∧ (writeDb none t "observations".toList false).2 = some .valueError := by
  obtain ⟨t, h1, h2, h3, h4, h5, h6, h7⟩ := construct_plain (C := baseClass) (f := ⟨("RA".toList, [.num 1]) :: oneRow, [0], none⟩) (colmap := none) (kw := []) (fp := none)
    (by intro k v h; cases h) (Or.inl fun u => rfl) (by decide) (fs := []) rfl (tree := [toCart 0 0]) rfl
  refine ⟨t, Made.new (by decide) (by decide) (by intro m h; cases h) h1, ?_⟩
  unfold writeDb
  dsimp only
  rw [h2, if_neg (by rintro ⟨h, _⟩; cases h), if_neg]
  have : (Dict.keys ((indexName (("RA".toList, [Cell.num 1]) :: oneRow), t.labels.map fun (i : Int) => Cell.num (i : ℝ)) :: ("RA".toList, [Cell.num 1]) :: oneRow)).map lowered =
    ["index".toList, "ra".toList, "ra".toList, "dec".toList, "time".toList] := by rfl
  rw [this]
  decide

/-- C101, what a table says about its survey: a keyword argument if there is one, otherwise what the file or frame says, otherwise the value documented for the class; for the
base class these are `None` for the dark current, extinction coefficients, pixel scale, radius, read noise and zero point per second, and the name `Unknown`. -/
theorem C101_survey {C : TableClass} (hC : SoundClass C) {f : Frame} {colmap : Option (Dict Name Name)} {kw : Dict Name SVal} {fp} {t : ObsTable}
    (h : construct C f colmap kw fp = .ok t) (hkw : kw.keys.Nodup) (ha : ∀ m, f.attrs = some m → m.keys.Nodup) (k : Name) :
    (∀ v, kw.get? k = some v → t.survey.get? k = some v) ∧
    (∀ m v, kw.get? k = none → f.attrs = some m → m.get? k = some v → t.survey.get? k = some v) ∧
    (kw.get? k = none → (∀ m, f.attrs = some m → m.get? k = none) → t.survey.get? k = C.defaults.get? k) ∧
    (∀ n ∈ ["dark_current", "ext_coeff", "pixel_scale", "radius", "read_noise", "zp_per_sec"], baseClass.defaults.get? n.toList = some .none) ∧
    baseClass.defaults.get? "survey_name".toList = some (.text "Unknown".toList) := by
  obtain ⟨nm, inv, _, _, _, _, _, hs, _⟩ := init_spec hC h
  rw [hs]
  unfold mergeSurvey
  simp only [putAll_get kw hkw]
  refine ⟨?_, ?_, ?_, ?_, by krfl⟩
  · intro v hv; rw [hv]
  · intro m v hn hm hv
    rw [hn, hm]
    simp only [putAll_get m (ha m hm), hv]
  · intro hn hm
    rw [hn]
    cases hf : f.attrs with
    | none => rfl
    | some m => simp only [putAll_get m (ha m hf), hm m hf]
  · intro n hn
    simp only [List.mem_cons, List.not_mem_nil, or_false] at hn
    rcases hn with rfl | rfl | rfl | rfl | rfl | rfl <;> krfl

/-- The hypotheses of `C101_survey` for a table with a radius given. -/
example : ∃ t, construct baseClass ⟨oneRow, [0], none⟩ none [("radius".toList, .num 2)] none = .ok t ∧ t.survey.get? "radius".toList = some (.num 2) ∧
    t.survey.get? "dark_current".toList = some .none := by
  obtain ⟨t, h, _⟩ := oneRow_construct [("radius".toList, .num 2)] none
  have hs := C101_survey baseSound h (by decide) (by intro m hm; cases hm)
  exact ⟨t, h, (hs _).1 _ (by krfl), by
    rw [(hs "dark_current".toList).2.2.1 (by krfl) (by intro m hm; cases hm)]
    exact (hs []).2.2.2.1 _ (by simp)⟩

end LCL.PersistProps
