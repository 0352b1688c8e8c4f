import Verif.Model.ZtfPersist
import Verif.Props.Persist
import Verif.Props.RandomSurvey

/-!
# Property C127: saving and loading ZTF tables
-/

namespace LCL.ZtfPersistProps
open LCL LCL.ObsTable LCL.ObsSpec LCL.PersistSpec LCL.RandomSurvey LCL.ZtfPersist LCL.PersistProps

/-! ### The column map -/

theorem remap_clash {columns : List Name} {k v : Name} (hk : k ∈ columns) (hv : v ∈ columns) (hne : k ≠ v) : ∀ (colmap : List (Name × Name)) (nm inv : Dict Name Name),
    (k, v) ∈ colmap → remap columns colmap nm inv = .error .valueError
  | [], _, _, h => by cases h
  | (a, b) :: rest, nm, inv, h => by
    rw [remap]
    rcases List.mem_cons.1 h with e | h
    · cases e
      rw [if_pos hv, if_pos ⟨hk, hne⟩]
    · split
      · split
        · rfl
        · exact remap_clash hk hv hne rest _ _ h
      · exact remap_clash hk hv hne rest _ _ h

theorem remap_names {columns : List Name} : ∀ (colmap : List (Name × Name)) (nm0 inv0 : Dict Name Name) {nm inv : Dict Name Name},
    remap columns colmap nm0 inv0 = .ok (nm, inv) → ∀ v k, nm.get? v = some k → nm0.get? v = some k ∨ (k, v) ∈ colmap
  | [], nm0, inv0, nm, inv, h, v, k, hk => by cases h; exact Or.inl hk
  | (a, b) :: rest, nm0, inv0, nm, inv, h, v, k, hk => by
    rw [remap] at h
    split at h
    · split at h
      · cases h
      · rcases remap_names rest _ _ h v k hk with h1 | h1
        · by_cases e : b = v
          · subst e
            rw [Dict.get?_set_self] at h1
            cases h1
            exact Or.inr (by simp)
          · rw [Dict.get?_set_ne _ _ e] at h1
            exact Or.inl h1
        · exact Or.inr (List.mem_cons_of_mem _ h1)
    · rcases remap_names rest _ _ h v k hk with h1 | h1
      · exact Or.inl h1
      · exact Or.inr (List.mem_cons_of_mem _ h1)

/-- An original name found in the table is renamed. -/
theorem remap_renames {columns : List Name} {v : Name} (hv : v ∈ columns) : ∀ (colmap : List (Name × Name)) (nm0 inv0 : Dict Name Name) {nm inv : Dict Name Name},
    remap columns colmap nm0 inv0 = .ok (nm, inv) → (nm0.get? v ≠ none ∨ ∃ k, (k, v) ∈ colmap) → nm.get? v ≠ none
  | [], nm0, inv0, nm, inv, h, hk => by
    cases h
    rcases hk with hk | ⟨k, hk⟩
    · exact hk
    · cases hk
  | (a, b) :: rest, nm0, inv0, nm, inv, h, hk => by
    rw [remap] at h
    by_cases e : b = v
    · subst e
      rw [if_pos hv] at h
      split at h
      · cases h
      · exact remap_renames hv rest _ _ h (Or.inl (by rw [Dict.get?_set_self]; simp))
    · have hk' : nm0.get? v ≠ none ∨ ∃ k, (k, v) ∈ rest := by
        rcases hk with hk | ⟨k, hk⟩
        · exact Or.inl hk
        · rcases List.mem_cons.1 hk with h1 | h1
          · cases h1; exact absurd rfl e
          · exact Or.inr ⟨k, h1⟩
      split at h
      · split at h
        · cases h
        · exact remap_renames hv rest _ _ h (by rw [Dict.get?_set_ne _ _ e]; exact hk')
      · exact remap_renames hv rest _ _ h hk'

theorem rename_get {nm : Dict Name Name} {n : Name} (h1 : nm.get? n = none) (h2 : ∀ v, nm.get? v ≠ some n) : ∀ cols : Dict Name (List Cell), (rename nm cols).get? n = cols.get? n
  | [] => rfl
  | (c, l) :: cols => by
    have : rename nm ((c, l) :: cols) = (((nm.get? c).getD c, l) :: rename nm cols) := rfl
    rw [this, Dict.get?_cons, Dict.get?_cons, rename_get h1 h2 cols]
    by_cases hc : c = n
    · subst hc
      rw [h1]
      simp
    · have : (nm.get? c).getD c ≠ n := by
        cases hn : nm.get? c with
        | none => simpa using hc
        | some k =>
          intro e
          exact h2 c (by rw [hn]; exact congrArg some e)
      rw [if_neg this, if_neg hc]

/-- The ZTF class derives zero points by adding a column. -/
theorem ztf_sound : SoundClass ztfClass := by
  refine ⟨?_, by decide +kernel, by decide +kernel⟩
  intro u u' h
  right
  have h' : ztfAssignZp u = .ok u' := h
  unfold ztfAssignZp at h'
  split at h'
  · split at h'
    · cases h'
    · split at h'
      · cases h'
      · split at h'
        · cases h'
        · split at h'
          · cases h'
          · unfold addColumn at h'
            split at h'
            · cases h'
            · dsimp only at h'
              split at h'
              · cases h'
                exact ⟨_, ‹_›, rfl⟩
              · cases h'
  · cases h'

/-! ### What can be read back -/

theorem withMjd_none (mjd : Name → Except Err ℝ) {f : Frame} (h : "obsdate".toList ∉ f.cols.keys) : withMjd mjd f = .ok f := by
  unfold withMjd
  rw [(Dict.get?_eq_none_iff _ _).2 h]

/-- C127, where it holds: a ZTF table without a column `obsdate` (the times were given as `obsmjd` or `time`), with none of the original column names among its columns and
with its zero points, is read back from a parquet file with the same columns, row labels and survey values, and finds the same observations; and from a database if
the table is named in the query. Missing: tables with dates, and reading by default what was written by default; see the counterexamples. -/
theorem C127_roundtrip_partial (mjd : Name → Except Err ℝ) {t : ObsTable} (ht : Made ztfClass t) (hdate : "obsdate".toList ∉ t.cols.keys)
    (hzp : "zp".toList ∈ t.cols.keys) :
    (NoClash ztfClass t.cols.keys → ∀ file overwrite, file = none ∨ overwrite = true → (writeParquet file t overwrite).2 = none ∧
      ∃ t', ztfFromParquet mjd (writeParquet file t overwrite).1 = .ok t' ∧ t'.cols = t.cols ∧ t'.labels = t.labels ∧
        (∀ k, t'.survey.get? k = t.survey.get? k) ∧ t'.footprint = none ∧
        (t.footprint = none → ∀ ra dec radius tmin tmax, t'.rangeSearch ra dec radius tmin tmax = t.rangeSearch ra dec radius tmin tmax)) ∧
    (NoClash ztfClass ("index".toList :: t.cols.keys) → (("index".toList :: t.cols.keys).map lowered).Nodup → ∀ (file : Option Database) (table : Name) (overwrite : Bool),
      overwrite = true ∨ (∀ db, file = some db → table ∉ db.keys) → (writeDb file t table overwrite).2 = none ∧
      ∃ t', ztfFromDb mjd (writeDb file t table overwrite).1 (some table) none = .ok t' ∧
        (∀ c, c ≠ "index".toList → t'.cols.get? c = t.cols.get? c) ∧ t'.survey = ztfClass.defaults ∧ t'.footprint = none ∧
        (t.footprint = none → t'.radius = t.radius → ∀ ra dec radius tmin tmax, t'.rangeSearch ra dec radius tmin tmax = t.rangeSearch ra dec radius tmin tmax)) := by
  refine ⟨fun hcl file ow hf => ?_, fun hcl hnames file table ow hf => ?_⟩
  · obtain ⟨h1, t', h2, h3, h4, h5, -, h6, h7, -⟩ := C101_roundtrip_partial ztf_sound ht hcl (Or.inr hzp) file ow hf
    refine ⟨h1, t', ?_, h3, h4, h5, h6, h7⟩
    have hw : (writeParquet file t ow).1 = some ⟨t.cols, t.labels, some t.survey⟩ := by
      unfold writeParquet
      rw [if_neg]
      rintro ⟨h1, h2⟩
      rcases hf with h | h
      · rw [h] at h2; cases h2
      · rw [h] at h1; cases h1
    rw [hw] at h2 ⊢
    unfold ztfFromParquet ztfInit
    dsimp only
    rw [withMjd_none mjd hdate]
    exact h2
  · obtain ⟨h1, -, t', h2, h3, -, -, h4, h5, h6, -⟩ := C102_roundtrip_partial ztf_sound ht hcl (Or.inr hzp) hnames file table ow hf [] none
    refine ⟨h1, t', ?_, h3, h4, h5, fun a b => h6 a rfl b⟩
    unfold fromDb at h2
    unfold ztfFromDb
    cases hdb : (writeDb file t table ow).1 with
    | none => rw [hdb] at h2; cases h2
    | some db =>
      rw [hdb] at h2
      dsimp only at h2 ⊢
      rw [show (some table).getD defaultTable = table from rfl]
      cases hc : db.get? table with
      | none => rw [hc] at h2; cases h2
      | some cols =>
        rw [hc] at h2
        dsimp only at h2 ⊢
        have hcols : "obsdate".toList ∉ cols.keys := by
          obtain ⟨-, -, t'', w2, w3, -⟩ := C102_roundtrip_partial ztf_sound ht hcl (Or.inr hzp) hnames file table ow hf [] none
          unfold writeDb at hdb h1
          dsimp only at hdb h1
          split at hdb
          · rename_i hg
            rw [if_pos hg] at h1; cases h1
          · split at hdb
            · cases hdb
              rw [Dict.get?_set_self] at hc
              cases hc
              intro hm
              rcases List.mem_cons.1 hm with e | hm
              · have : indexName t.cols = "index".toList := by
                  unfold indexName
                  rw [if_neg]
                  intro h
                  rw [List.map_cons, List.nodup_cons] at hnames
                  exact hnames.1 (List.mem_map.2 ⟨_, (Dict.has_iff _ _).1 h, rfl⟩)
                rw [this] at e
                exact absurd (show "obsdate".toList = "index".toList from e) (by decide)
              · exact hdate hm
            · rename_i hg hn
              rw [if_neg hg, if_neg hn] at h1
              cases h1
        unfold ztfInit
        rw [withMjd_none mjd hcols]
        exact h2

/-- One exposure at time 7 with its zero point. -/
def ztfRow : Dict Name (List Cell) := [("ra".toList, [.num 0]), ("dec".toList, [.num 0]), ("time".toList, [.num 7]), ("zp".toList, [.num 26])]

/-- The hypotheses of C127 are met by the ZTF table of one exposure. -/
example (mjd : Name → Except Err ℝ) : ∃ t, ztfInit mjd ⟨ztfRow, [0], none⟩ none [] none = .ok t ∧ Made ztfClass t ∧ "obsdate".toList ∉ t.cols.keys ∧ "zp".toList ∈ t.cols.keys ∧
    NoClash ztfClass ("index".toList :: t.cols.keys) ∧ NoClash ztfClass t.cols.keys ∧ (("index".toList :: t.cols.keys).map lowered).Nodup := by
  have clash : NoClash ztfClass ("index".toList :: ztfRow.keys) := by
    intro k v h hv
    simp only [ztfClass, List.mem_cons, List.not_mem_nil, or_false, Prod.mk.injEq] at h
    have h0 : "index".toList :: ztfRow.keys = ["index".toList, "ra".toList, "dec".toList, "time".toList, "zp".toList] := rfl
    rw [h0] at hv
    rcases h with ⟨rfl, rfl⟩ | ⟨rfl, rfl⟩ | ⟨rfl, rfl⟩ | ⟨rfl, rfl⟩ | ⟨rfl, rfl⟩ | ⟨rfl, rfl⟩ | ⟨rfl, rfl⟩ | ⟨rfl, rfl⟩ | ⟨rfl, rfl⟩ <;> first | rfl | exact absurd hv (by decide)
  have clash' : NoClash ztfClass ztfRow.keys := fun k v h hv => clash k v h (List.mem_cons_of_mem _ hv)
  obtain ⟨t, h1, h2, h3, h4, h5, h6, h7⟩ := construct_plain (C := ztfClass) (f := ⟨ztfRow, [0], none⟩) (colmap := none) (kw := []) (fp := none)
    clash' (Or.inr (by decide)) (by decide) (fs := []) rfl (tree := [toCart 0 0]) rfl
  refine ⟨t, ?_, Made.new (by decide) (by decide) (by intro m h; cases h) h1, ?_, ?_, ?_, ?_, ?_⟩
  · unfold ztfInit
    rw [withMjd_none mjd (by decide)]
    exact h1
  all_goals rw [h2]
  · decide
  · decide
  · exact clash
  · exact clash'
  · decide

/-! ### What cannot -/

/-- A frame with dates, a column `time` and no column `obsmjd` is refused. -/
theorem dates_refused (mjd : Name → Except Err ℝ) {f : Frame} {dates : List Cell} (hd : f.cols.get? "obsdate".toList = some dates) (ht : "time".toList ∈ f.cols.keys)
    (hm : "obsmjd".toList ∉ f.cols.keys) (colmap : Option (Dict Name Name)) (hcm : colmap = none ∨ colmap = some ztfClass.colmap) (kw fp) :
    ∃ e, ztfInit mjd f colmap kw fp = .error e := by
  have hmap : chosenMap ztfClass colmap = ztfClass.colmap := by rcases hcm with rfl | rfl <;> rfl
  unfold ztfInit withMjd
  rw [hd]
  dsimp only
  rw [if_neg (by rw [Dict.has_iff]; exact hm)]
  cases dates.mapM Cell.str? with
  | error e => exact ⟨e, rfl⟩
  | ok names =>
    dsimp only
    cases names.mapM mjd with
    | error e => exact ⟨e, rfl⟩
    | ok ts =>
      refine ⟨.valueError, ?_⟩
      dsimp only
      unfold construct ObsTable.init
      rw [hmap, remap_clash (k := "time".toList) (v := "obsmjd".toList) _ _ (by decide) ztfClass.colmap [] [] (by simp [ztfClass])]
      · exact (Dict.mem_keys_set _ _ _ _).2 (Or.inr ht)
      · exact (Dict.mem_keys_set _ _ _ _).2 (Or.inl rfl)

/-- C127, the code disagrees: a ZTF table made from exposures with dates (`obsdate`, as in the survey's own data and in `create_random_ztf_obs_data`) is written
without an error, but no such file can ever be read: the constructor makes a column `obsmjd` from the dates once more and finds `time` taken. This holds for every such
table, parquet file, database and way of reading dates. -/
theorem C127_dates_counterexample (mjd mjd' : Name → Except Err ℝ) {f : Frame} {dates : List Cell} (hd : f.cols.get? "obsdate".toList = some dates)
    (hm : "obsmjd".toList ∉ f.cols.keys) {kw fp} {t : ObsTable} (h : ztfInit mjd f none kw fp = .ok t) :
    (writeParquet none t false).2 = none ∧ (∃ e, ztfFromParquet mjd' (writeParquet none t false).1 = .error e) ∧
    ∀ (file : Option Database) (table : Name) (overwrite : Bool), (writeDb file t table overwrite).2 = none →
      ∃ e, ztfFromDb mjd' (writeDb file t table overwrite).1 (some table) none = .error e := by
  have facts : t.cols.get? "obsdate".toList = some dates ∧ "time".toList ∈ t.cols.keys ∧ "obsmjd".toList ∉ t.cols.keys := by
    unfold ztfInit at h
    cases hw : withMjd mjd f with
    | error e => rw [hw] at h; cases h
    | ok f' =>
      rw [hw] at h
      dsimp only at h
      have hf' : f'.cols.get? "obsdate".toList = some dates := by
        unfold withMjd at hw
        rw [hd] at hw
        dsimp only at hw
        rw [if_neg (by rw [Dict.has_iff]; exact hm)] at hw
        cases h1 : dates.mapM Cell.str? with
        | error e => rw [h1] at hw; cases hw
        | ok names =>
          rw [h1] at hw
          dsimp only at hw
          cases h2 : names.mapM mjd with
          | error e => rw [h2] at hw; cases hw
          | ok ts =>
            rw [h2] at hw
            cases hw
            show (f.cols.set _ _).get? _ = _
            rw [Dict.get?_set_ne _ _ (by decide)]
            exact hd
      obtain ⟨nm, inv, r1, r2, -, -, -, -, -, -, r3⟩ := init_spec ztf_sound h
      have hnm : ∀ v k, nm.get? v = some k → (k, v) ∈ ztfClass.colmap := by
        intro v k hk
        rcases remap_names _ _ _ r1 v k hk with h1 | h1
        · cases h1
        · exact h1
      have keys : ∀ v k, nm.get? v = some k → k ≠ "obsdate".toList ∧ k ≠ "obsmjd".toList ∧ v ≠ "obsdate".toList := by
        intro v k hk
        have := hnm v k hk
        simp only [ztfClass, List.mem_cons, List.not_mem_nil, or_false, Prod.mk.injEq] at this
        rcases this with ⟨rfl, rfl⟩ | ⟨rfl, rfl⟩ | ⟨rfl, rfl⟩ | ⟨rfl, rfl⟩ | ⟨rfl, rfl⟩ | ⟨rfl, rfl⟩ | ⟨rfl, rfl⟩ | ⟨rfl, rfl⟩ | ⟨rfl, rfl⟩ <;> decide
      have hren : (rename nm f'.cols).get? "obsdate".toList = some dates := by
        rw [rename_get _ (fun v hv => (keys v _ hv).1 rfl), hf']
        cases hn : nm.get? "obsdate".toList with
        | none => rfl
        | some k => exact absurd rfl (keys _ _ hn).2.2
      have hmj : "obsmjd".toList ∉ (rename nm f'.cols).keys := by
        intro hmem
        obtain ⟨q, hq, e⟩ := List.mem_map.1 hmem
        obtain ⟨c, hc, rfl⟩ := List.mem_map.1 hq
        dsimp only at e
        cases hn : nm.get? c.1 with
        | some k =>
          rw [hn] at e
          exact (keys _ _ hn).2.1 e
        | none =>
          rw [hn] at e
          have e' : c.1 = "obsmjd".toList := e
          have hcol : "obsmjd".toList ∈ f'.cols.keys := List.mem_map.2 ⟨c, hc, e'⟩
          -- the map renames `obsmjd`, for it is one of its original names
          rw [e'] at hn
          exact remap_renames hcol _ _ _ r1 (Or.inr ⟨"time".toList, by simp [chosenMap, ztfClass]⟩) hn
      have htime := r2 "time".toList (by simp [ztfClass, baseRequired])
      rcases r3 with r3 | ⟨l, -, r3⟩
      · rw [r3]; exact ⟨hren, htime, hmj⟩
      · rw [r3]
        refine ⟨by rw [Dict.get?_set_ne _ _ (by decide)]; exact hren, (Dict.mem_keys_set _ _ _ _).2 (Or.inr htime), ?_⟩
        intro hmem
        rcases (Dict.mem_keys_set _ _ _ _).1 hmem with e | e
        · exact absurd e (by decide)
        · exact hmj e
  obtain ⟨f1, f2, f3⟩ := facts
  refine ⟨rfl, dates_refused mjd' (f := ⟨t.cols, t.labels, some t.survey⟩) f1 f2 f3 none (Or.inl rfl) _ _, ?_⟩
  intro file table ow hok
  unfold writeDb at hok ⊢
  dsimp only at hok ⊢
  split at hok
  · cases hok
  · rename_i hg
    rw [if_neg hg]
    split at hok
    · rename_i hn
      rw [if_pos hn]
      unfold ztfFromDb
      dsimp only
      rw [show (some table).getD defaultTable = table from rfl, Dict.get?_set_self]
      dsimp only
      have hidx : indexName t.cols ≠ "obsdate".toList ∧ indexName t.cols ≠ "obsmjd".toList := by
        unfold indexName; split <;> decide
      refine dates_refused mjd' (dates := dates) ?_ ?_ ?_ _ (Or.inr rfl) _ _
      · rw [Dict.get?_cons, if_neg hidx.1]; exact f1
      · exact List.mem_cons_of_mem _ f2
      · intro hm
        rcases List.mem_cons.1 hm with e | hm
        · exact hidx.2 e.symm
        · exact f3 hm
    · cases hok

/-- C127, the code disagrees: `write_db` writes the table `observations`, `ZTFObsTable.from_db` reads `exposures`: no table written by default into a new file is read by
default. -/
theorem C127_default_counterexample (mjd : Name → Except Err ℝ) (t : ObsTable) (hok : (writeDb none t defaultWritten false).2 = none) (colmap) :
    ztfFromDb mjd (writeDb none t defaultWritten false).1 none colmap = .error .valueError := by
  unfold writeDb at hok ⊢
  dsimp only at hok ⊢
  split at hok
  · cases hok
  · rename_i hg
    rw [if_neg hg]
    split at hok
    · rename_i hn
      rw [if_pos hn]
      unfold ztfFromDb
      dsimp only
      rw [Dict.get?_set_ne _ _ (by decide)]
      rfl
    · cases hok

/-- The random exposures of `create_random_ztf_obs_data` make a table, of any size and seed, that can be written but never read. -/
example {ρ : Type} (G : Rng ρ) (entropy : ρ) (n : Nat) (hn : 0 < n) (seed : Option Int) (mjd : Name → Except Err ℝ) (T : ℝ)
    (hT : mjd "2018-03-25 06:04:40.000".toList = .ok T) :
    ∃ f t e, createRandomZtf G entropy n seed = .ok f ∧ ztfInit mjd f none [] none = .ok t ∧ (writeParquet none t false).2 = none ∧
      ztfFromParquet mjd (writeParquet none t false).1 = .error e := by
  obtain ⟨f, t, _, _, _, _, _, _, h1, h2, -⟩ := RandomSurveyProps.C104_ztf G entropy n hn seed mjd T hT
  have hf : f.cols = ztfCols G (startState G entropy seed) n := by
    unfold createRandomZtf at h1
    rw [if_neg (by omega)] at h1
    cases h1
    rfl
  obtain ⟨h3, ⟨e, h4⟩, -⟩ := C127_dates_counterexample mjd mjd (f := f) (dates := _) (by rw [hf]; rfl) (by rw [hf]; simp [ztfCols, Dict.keys]) h2
  exact ⟨f, t, e, h1, h2, h3, h4⟩

end LCL.ZtfPersistProps
