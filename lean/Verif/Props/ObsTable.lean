import Verif.Props.RangeSearch

/-!
# Properties C38 (filtering keeps a consistent table), C39 (column mapping is transparent) and
C68 (survey constants are assigned by filter)
-/

namespace LCL.ObsTableProps
open LCL LCL.ObsSpec LCL.ObsLemmas LCL.ObsTable Real

/-! ## C38 -/

theorem setTrue_spec {is : List Int} {m m' : List Bool} (h : setTrue is m = .ok m') (k : Nat) (hk : k < m.length) :
    m'[k]? = some true ↔ m[k]? = some true ∨ ∃ j ∈ is, j = (k : Int) ∨ j + m.length = (k : Int) := by
  induction is generalizing m with
  | nil => cases h; simp
  | cons i is ih =>
    simp only [setTrue] at h
    cases hn : normIndex m.length i with
    | none => rw [hn] at h; cases h
    | some p =>
      rw [hn] at h
      simp only at h
      have := ih h (by simpa using hk)
      rw [this]
      have hp : ∀ k : Nat, k < m.length → (p = k ↔ i = (k : Int) ∨ i + m.length = (k : Int)) := by
        intro k hk
        unfold normIndex at hn
        by_cases h0 : 0 ≤ i
        · rw [if_pos h0] at hn
          split at hn
          · cases hn; omega
          · cases hn
        · rw [if_neg h0] at hn
          split at hn
          · cases hn; omega
          · cases hn
      have hp' := hp k hk
      rw [List.getElem?_set]
      simp only [List.length_set, List.mem_cons, exists_eq_or_imp]
      by_cases hpk : p = k
      · simp [hpk, hk, hp'.1 hpk]
      · rw [if_neg hpk]
        have : ¬ (i = (k : Int) ∨ i + m.length = (k : Int)) := fun h => hpk (hp'.2 h)
        constructor
        · rintro (h | h)
          · exact Or.inl h
          · exact Or.inr (Or.inr h)
        · rintro (h | h | h)
          · exact Or.inl h
          · exact absurd h this
          · exact Or.inr h

/-- C38, contents. A successful filter_rows keeps, in every column, exactly the entries of the selected rows in
order; a mask selects its True rows, a list of integers the rows it names (negative numbers count from the
end). -/
theorem C38_rows {t t' : ObsTable} {rows : RowSel} (h : t.filterRows rows = .ok t') :
    ∃ m : List Bool, m.length = t.len ∧
      (match rows with
       | .mask m' => m = m'
       | .index l => ∀ k < t.len, (m[k]? = some true ↔ ∃ j ∈ l, j = (k : Int) ∨ j + t.len = (k : Int))
       | .emptyList => False) ∧
      t'.cols = t.cols.map (fun q => (q.1, keep m q.2)) ∧ t'.len = m.count true ∧
      t'.survey = t.survey ∧ t'.footprint = t.footprint := by
  obtain ⟨m, hm, h1, h2, h3, h4, h5, h6, h7⟩ := filterRows_ok h
  have hl := rowMask_length hm
  refine ⟨m, hl, ?_, h1, ?_, h5, h4⟩
  · cases rows with
    | mask m' => simp only [rowMask] at hm; split at hm <;> cases hm; rfl
    | index l =>
      intro k hk
      simp only [rowMask] at hm
      have := setTrue_spec hm k (by simpa using hk)
      rw [this]
      simp [List.getElem?_replicate]
    | emptyList => cases hm
  · unfold ObsTable.len
    rw [h2]
    exact keep_length _ _ hl

/-- C38: a mask of another length raises ValueError, and so does an index out of range with IndexError. -/
theorem C38_bad_rows_raise (t : ObsTable) :
    (∀ m : List Bool, m.length ≠ t.len → t.filterRows (.mask m) = .error .valueError) ∧
    (∀ l : List Int, (∃ j ∈ l, j < -(t.len : Int) ∨ (t.len : Int) ≤ j) → t.filterRows (.index l) = .error .indexError) := by
  refine ⟨fun m hm => by simp [filterRows, rowMask, hm], ?_⟩
  intro l hl
  have key : ∀ (l : List Int) (m : List Bool), m.length = t.len → (∃ j ∈ l, j < -(t.len : Int) ∨ (t.len : Int) ≤ j) →
      setTrue l m = .error .indexError := by
    intro l
    induction l with
    | nil => rintro m _ ⟨j, hj, _⟩; simp at hj
    | cons i is ih =>
      rintro m hm ⟨j, hj, hb⟩
      simp only [setTrue]
      cases hn : normIndex m.length i with
      | none => rfl
      | some p =>
        simp only
        rcases List.mem_cons.1 hj with rfl | hj
        · exfalso
          unfold normIndex at hn
          split at hn
          · split at hn
            · omega
            · cases hn
          · split at hn
            · omega
            · cases hn
        · exact ih _ (by simpa using hm) ⟨j, hj, hb⟩
  simp only [filterRows, rowMask]
  rw [key l _ (List.length_replicate ..) hl]

theorem init_plain {cols : Dict Name (List Cell)} {labels : List Int} {survey : Dict Name SVal} {fp u}
    (h : ObsTable.init [] (fun x => .ok x) cols labels [] survey fp = .ok u) :
    u.cols = cols ∧ u.labels = labels ∧ u.survey = survey ∧ u.footprint = fp ∧ buildTree cols = .ok u.tree ∧
      uniqueFilters cols = .ok u.filters ∧ u.invColmap = [] := by
  unfold ObsTable.init at h
  have hr : rename [] cols = cols := by unfold rename; simp
  simp only [remap, hr, List.all_nil, if_true] at h
  cases hf : uniqueFilters cols with
  | error e => rw [hf] at h; cases h
  | ok fs =>
    rw [hf] at h
    simp only [ite_self] at h
    cases hb : buildTree cols with
    | error e => rw [hb] at h; cases h
    | ok tree => rw [hb] at h; cases h; exact ⟨rfl, rfl, rfl, rfl, rfl, rfl, rfl⟩

/-- Tables with the same columns, settings and kd-tree answer searches alike. -/
theorem search_congr {t u : ObsTable} (h1 : t.cols = u.cols) (h2 : t.survey = u.survey) (h3 : t.footprint = u.footprint)
    (h4 : t.tree = u.tree) (ra dec : QArg) (radius : Option ℝ) (tmin tmax : TArg) :
    t.rangeSearch ra dec radius tmin tmax = u.rangeSearch ra dec radius tmin tmax := by
  unfold rangeSearch timeStep footprintStep ObsTable.radius
  rw [h1, h2, h3, h4]

/-- C38, queries. Searches, observation checks, time bounds and column look-ups on a filtered table agree with
those on a table built afresh from the selected rows. -/
theorem C38_queries {t t' u : ObsTable} {rows : RowSel} {m : List Bool} (hm : rowMask t.len rows = .ok m)
    (h : t.filterRows rows = .ok t') (hu : FreshFrom t m u) :
    (∀ ra dec radius tmin tmax, t'.rangeSearch ra dec radius tmin tmax = u.rangeSearch ra dec radius tmin tmax) ∧
    (∀ ra dec radius tmin tmax, t'.isObserved ra dec radius tmin tmax = u.isObserved ra dec radius tmin tmax) ∧
    t'.timeBounds = u.timeBounds ∧ t'.len = u.len ∧ ∀ name c, u.getItem name = .ok c → t'.getItem name = .ok c := by
  obtain ⟨m', hm', h1, h2, h3, h4, h5, -⟩ := filterRows_ok h
  rw [hm] at hm'
  cases hm'
  obtain ⟨u1, u2, u3, u4, u5, u6, u7⟩ := init_plain hu
  have hc : t'.cols = u.cols := by rw [h1, u1]
  have ht : t'.tree = u.tree := by
    rw [h1, u5] at h3; injection h3 with h3; exact h3.symm
  have hs := search_congr hc (by rw [h5, u3]) (by rw [h4, u4]) ht
  refine ⟨hs, ?_, ?_, ?_, ?_⟩
  · intro ra dec radius tmin tmax
    unfold isObserved
    rw [hs]
  · unfold timeBounds; rw [hc]
  · unfold ObsTable.len
    rw [h2, u2, keep_length _ _ (rowMask_length hm)]
    simp
  · intro name c hg
    unfold getItem at hg ⊢
    rw [hc]
    cases hk : u.cols.get? name with
    | some c' => rw [hk] at hg; exact hg
    | none => rw [hk, u7] at hg; cases hg

/-- C38, sequences of filters: filtering by a mask and then by a second one keeps the rows that are kept by
both. -/
theorem C38_sequence {t t1 t2 : ObsTable} {m1 m2 : List Bool} (h1 : t.filterRows (.mask m1) = .ok t1)
    (h2 : t1.filterRows (.mask m2) = .ok t2) :
    t2.cols = t.cols.map (fun q => (q.1, keep m2 (keep m1 q.2))) := by
  obtain ⟨m, hm, e1, -⟩ := filterRows_ok h1
  obtain ⟨m', hm', e2, -⟩ := filterRows_ok h2
  simp only [rowMask] at hm hm'
  split at hm <;> cases hm
  split at hm' <;> cases hm'
  rw [e2, e1, List.map_map]
  rfl

/-- C38, `time_bounds` itself: for a table whose times are the numbers `l`, it is a pair of times of the table between which all of them lie (nothing for an empty
table). -/
theorem C38_time_bounds {t : ObsTable} {l : List ℝ} (hl : t.cols.get? "time".toList = some (l.map Cell.num)) :
    (l = [] → t.timeBounds = .ok (none, none)) ∧
    (l ≠ [] → ∃ lo hi, t.timeBounds = .ok (some lo, some hi) ∧ lo ∈ l ∧ hi ∈ l ∧ ∀ x ∈ l, lo ≤ x ∧ x ≤ hi) := by
  have h1 : numCol t.cols "time".toList = .ok l := numCol_ok.2 hl
  have h2 : t.timeBounds = .ok (npMin l, npMax l) := by unfold timeBounds; rw [h1]
  rw [h2]
  refine ⟨by rintro rfl; rfl, fun hne => ?_⟩
  cases ha : npMin l with
  | none => exact absurd (LCL.PhysLemmas.npMin_none ha) hne
  | some lo =>
    cases hb : npMax l with
    | none => exact absurd (LCL.PhysLemmas.npMax_none hb) hne
    | some hi => exact ⟨lo, hi, rfl, (LCL.PhysLemmas.npMin_spec ha).1, (LCL.PhysLemmas.npMax_spec hb).1, fun x hx => ⟨(LCL.PhysLemmas.npMin_spec ha).2 x hx, (LCL.PhysLemmas.npMax_spec hb).2 x hx⟩⟩

theorem atLabel_range (c : List Cell) (k : Nat) (hk : k < c.length) :
    atLabel ((List.range c.length).map fun (i : Nat) => (i : Int)) c k = [c[k]] := by
  have key : ∀ (c : List Cell) (s k : Nat) (hk : k < c.length),
      atLabel ((List.range' s c.length).map fun (i : Nat) => (i : Int)) c ((s + k : Nat) : Int) = [c[k]] := by
    intro c
    induction c with
    | nil => intro s k hk; simp at hk
    | cons x c ih =>
      intro s k hk
      unfold atLabel at ih ⊢
      simp only [List.length_cons, List.range'_succ, List.map_cons, List.zip_cons_cons, List.filter_cons]
      cases k with
      | zero =>
        simp only [Nat.add_zero, decide_true, if_true, List.map_cons, List.getElem_cons_zero, List.cons.injEq, true_and]
        rw [List.map_eq_nil_iff, List.filter_eq_nil_iff]
        intro p hp
        have := List.of_mem_zip hp
        obtain ⟨i, hi, e⟩ := List.mem_map.1 this.1
        rw [List.mem_range'_1] at hi
        simp only [decide_eq_true_eq]
        omega
      | succ k =>
        rw [if_neg (by simp only [decide_eq_true_eq]; omega)]
        have := ih (s + 1) k (by simpa using hk)
        rw [show s + 1 + k = s + (k + 1) by omega] at this
        simpa using this
  have := key c 0 k hk
  simpa [List.range_eq_range'] using this

theorem loc_range (c : List Cell) (l : List Nat) (hl : ∀ k ∈ l, k < c.length) :
    ∃ v, loc ((List.range c.length).map fun (i : Nat) => (i : Int)) c l = .ok v ∧ v.map some = l.map fun k => c[k]? := by
  induction l with
  | nil => exact ⟨[], rfl, rfl⟩
  | cons k l ih =>
    obtain ⟨v, hv, e⟩ := ih (fun k hk => hl k (List.mem_cons_of_mem _ hk))
    have hk := hl k (by simp)
    refine ⟨c[k] :: v, ?_, ?_⟩
    · simp [loc, atLabel_range c k hk, hv]
    · simp [e, List.getElem?_eq_getElem hk]

/-- C38, get_observations, the part that holds: on a table whose rows are labelled 0, 1, 2, ... (a table that
was never filtered), get_observations returns for every requested column the entries of exactly the rows that
range_search finds. Missing: tables whose labels are not their positions, which is what filter_rows leaves
(see `C38_get_observations_counterexample`). -/
theorem C38_get_observations_partial {t : ObsTable} (hb : Built t)
    (hlab : t.labels = (List.range t.len).map fun (i : Nat) => (i : Int)) {ra dec : ℝ} {radius : Option ℝ}
    {tmin tmax : TArg} {l : List Nat} (hs : t.rangeSearch (.scalar ra) (.scalar dec) radius tmin tmax = .ok (.one l))
    (names : List Name) (hn : ∀ n ∈ names, t.contains n = true) (hl : ∀ k ∈ l, k < t.len) :
    ∃ d, t.getObservations ra dec radius tmin tmax (some names) = .ok d ∧ d.keys = names ∧
      ∀ n v, (n, v) ∈ d → ∃ c, t.getItem n = .ok c ∧ v.map some = l.map fun k => c[k]? := by
  unfold getObservations
  rw [hs]
  simp only [Option.getD_some]
  have hwf := (built_spec hb).1
  induction names with
  | nil => exact ⟨[], rfl, rfl, by simp⟩
  | cons n names ih =>
    obtain ⟨d, hd, hk, hv⟩ := ih (fun x hx => hn x (List.mem_cons_of_mem _ hx))
    have hcn := hn n (by simp)
    have hgi : ∃ c, t.getItem n = .ok c ∧ c.length = t.len := by
      unfold ObsTable.contains at hcn
      unfold getItem
      cases h1 : t.cols.get? n with
      | some c => exact ⟨c, rfl, hwf.1 _ (Dict.mem_of_get? h1)⟩
      | none =>
        simp only [Dict.has, h1, Option.isSome_none, Bool.false_eq_true, if_false] at hcn
        cases h2 : t.invColmap.get? n with
        | none => rw [h2] at hcn; cases hcn
        | some k =>
          rw [h2] at hcn
          simp only at hcn ⊢
          cases h3 : t.cols.get? k with
          | none => rw [h3] at hcn; cases hcn
          | some c => exact ⟨c, rfl, hwf.1 _ (Dict.mem_of_get? h3)⟩
    obtain ⟨c, hc, hcl⟩ := hgi
    obtain ⟨v, hv1, hv2⟩ := loc_range c l (by rw [hcl]; exact hl)
    refine ⟨(n, v) :: d, ?_, by simp [hk], ?_⟩
    · simp only [extract, hc]
      rw [hlab, ← hcl, hv1]
      simp only
      rw [hd]
    · intro n' v' hm
      rcases List.mem_cons.1 hm with e | hm
      · cases e; exact ⟨c, hc, hv2⟩
      · exact hv n' v' hm

/-- Two observations of (0, 0), one in g and one in r. -/
def twoRows : Dict Name (List Cell) :=
  [("ra".toList, [.num 0, .num 0]), ("dec".toList, [.num 0, .num 0]), ("time".toList, [.num 7, .num 8]),
   ("filter".toList, [.str "g".toList, .str "r".toList])]

noncomputable def twoTable : ObsTable :=
  ⟨twoRows, [0, 1], [], [("radius".toList, .num 1)], ["g".toList, "r".toList], [toCart 0 0, toCart 0 0], none⟩

theorem uniqueFilters_two : uniqueFilters twoRows = .ok ["g".toList, "r".toList] := by
  unfold uniqueFilters
  have h : twoRows.get? "filter".toList = some [.str "g".toList, .str "r".toList] := rfl
  rw [h]
  have h2 : List.mapM Cell.str? [.str "g".toList, .str "r".toList] = .ok ["g".toList, "r".toList] := rfl
  simp only [h2]
  have : npUnique ["g".toList, "r".toList] = ["g".toList, "r".toList] := by
    unfold npUnique
    rw [List.mergeSort_of_pairwise]
    · decide
    · simp only [List.pairwise_cons, List.mem_singleton, List.not_mem_nil, false_implies, implies_true, List.Pairwise.nil, and_true]
      rintro a rfl; decide
  rw [this]

theorem twoTable_init : ObsTable.init baseRequired (fun t => .ok t) twoRows [0, 1] [] [("radius".toList, .num 1)] none =
    .ok twoTable := by
  have h1 : numCol twoRows "ra".toList = .ok [0, 0] := rfl
  have h2 : numCol twoRows "dec".toList = .ok [0, 0] := rfl
  have h3 : rename [] twoRows = twoRows := rfl
  unfold ObsTable.init
  simp only [remap, h3]
  rw [if_pos (by decide), uniqueFilters_two]
  simp only
  rw [if_neg (by simp [ObsTable.contains, twoRows, Dict.has, Dict.get?])]
  simp only [buildTree, h1, h2]
  rfl

theorem twoTable_built : Built twoTable :=
  .init (by simp [twoRows]) (by decide) (by simp) (by intro u u' h e; cases e; exact h) twoTable_init

/-- The filtered table: the second row only. -/
noncomputable def secondTable : ObsTable :=
  ⟨[("ra".toList, [.num 0]), ("dec".toList, [.num 0]), ("time".toList, [.num 8]), ("filter".toList, [.str "r".toList])],
   [1], [], [("radius".toList, .num 1)], ["g".toList, "r".toList], [toCart 0 0], none⟩

theorem secondTable_filter : twoTable.filterRows (.mask [false, true]) = .ok secondTable := by
  unfold filterRows
  have : rowMask twoTable.len (.mask [false, true]) = .ok [false, true] := rfl
  rw [this]
  have hg : (twoTable.cols.map fun (q : Name × List Cell) => (q.1, gather [false, true] q.2)) = secondTable.cols := by
    simp [twoTable, twoRows, secondTable]
  simp only [hg]
  have hb : buildTree secondTable.cols = .ok [toCart 0 0] := rfl
  rw [hb]
  simp [secondTable, twoTable, twoRows]

theorem ball_here : queryBall [toCart 0 0] (toCart 0 0) (chordRadius 1) = [0] := by
  have hpi := pi_pos
  have hchord : 0 ≤ chordRadius 1 := by
    unfold chordRadius
    have : 0 ≤ sin (1 * (π / 180) / 2) := sin_nonneg_of_nonneg_of_le_pi (by positivity) (by linarith)
    linarith
  unfold queryBall
  simp only [List.length_singleton, List.range_one]
  rw [List.filter_cons]
  simp [RangeSearchProps.dist_self, hchord]

/-- C38 fails for get_observations: after keeping only the second row, range_search finds that row (number
0), but get_observations looks for the label 0, which is gone, and raises KeyError. -/
theorem C38_get_observations_counterexample : Built secondTable ∧
    secondTable.rangeSearch (.scalar 0) (.scalar 0) (some 1) .none .none = .ok (.one [0]) ∧
    secondTable.getObservations 0 0 (some 1) .none .none (some ["time".toList]) = .error .keyError := by
  have hs : secondTable.rangeSearch (.scalar 0) (.scalar 0) (some 1) .none .none = .ok (.one [0]) := by
    have hq : queryPoints (.scalar 0) (.scalar 0) = .ok [(0, 0)] := rfl
    have hr : ∀ t : ObsTable, (some (1 : ℝ) <|> t.radius) = some 1 := fun _ => rfl
    unfold rangeSearch
    rw [hq]
    simp only [hr, secondTable, List.map_cons, List.map_nil, ball_here, timeStep, TArg.isNone, and_self, if_true,
      footprintStep, QArg.isScalar, List.headD_cons]
  refine ⟨.filter twoTable_built secondTable_filter, hs, ?_⟩
  unfold getObservations
  rw [hs]
  rfl

/-- C38 fails for the attribute `filters`: it still lists the filters of the removed rows, while a table built
from the remaining row lists only r. -/
theorem C38_filters_counterexample : twoTable.filterRows (.mask [false, true]) = .ok secondTable ∧
    secondTable.filters = ["g".toList, "r".toList] ∧
    ∀ u, FreshFrom twoTable [false, true] u → u.filters = ["r".toList] := by
  refine ⟨secondTable_filter, rfl, ?_⟩
  intro u hu
  obtain ⟨_, _, _, _, _, h6, _⟩ := init_plain hu
  have hc : (twoTable.cols.map fun (q : Name × List Cell) => (q.1, keep [false, true] q.2)) = secondTable.cols := by
    simp [twoTable, twoRows, secondTable, keep]
  rw [hc] at h6
  unfold uniqueFilters at h6
  have h : secondTable.cols.get? "filter".toList = some [.str "r".toList] := rfl
  rw [h] at h6
  have h2 : List.mapM Cell.str? [.str "r".toList] = .ok ["r".toList] := rfl
  simp only [h2] at h6
  have : npUnique ["r".toList] = ["r".toList] := by
    unfold npUnique
    rw [List.mergeSort_singleton]
    rfl
  rw [this] at h6
  injection h6 with h6
  exact h6.symm

/-- C38 fails for an empty list of rows: instead of an empty table it raises IndexError. -/
theorem C38_empty_list_counterexample (t : ObsTable) : t.filterRows .emptyList = .error .indexError := rfl

/-! ## C39 -/

theorem get?_rename {cols : Dict Name (List Cell)} {colmap nm inv : Dict Name Name} (hc : cols.keys.Nodup)
    (hn : colmap.keys.Nodup) (h : remap cols.keys colmap [] [] = .ok (nm, inv)) {c : Name} {data : List Cell}
    (hm : (c, data) ∈ cols) : (rename nm cols).get? ((nm.get? c).getD c) = some data := by
  apply Dict.get?_of_mem (rename_nodup hc hn h)
  exact List.mem_map.2 ⟨(c, data), hm, rfl⟩

theorem init_cols {required cols labels colmap survey fp t}
    (h : ObsTable.init required (fun x => .ok x) cols labels colmap survey fp = .ok t) :
    ∃ nm, remap cols.keys colmap [] [] = .ok (nm, t.invColmap) ∧ t.cols = rename nm cols ∧
      ∀ c ∈ required, c ∈ t.cols.keys := by
  unfold ObsTable.init at h
  cases hr : remap cols.keys colmap [] [] with
  | error e => rw [hr] at h; cases h
  | ok p =>
    obtain ⟨nm, inv⟩ := p
    rw [hr] at h
    simp only at h
    split at h
    · rename_i hall
      cases hf : uniqueFilters (rename nm cols) with
      | error e => rw [hf] at h; cases h
      | ok fs =>
        rw [hf] at h
        simp only [ite_self] at h
        cases hb : buildTree (rename nm cols) with
        | error e => rw [hb] at h; cases h
        | ok tree =>
          rw [hb] at h
          cases h
          refine ⟨nm, rfl, rfl, fun c hc => ?_⟩
          exact (Dict.has_iff _ _).1 (List.all_eq_true.1 hall c hc)
    · cases h

/-- C39, names. In a table built from columns and a column map that maps no column twice, every original
column is found under its original name, and every mapped column also under its mapped name, with the same
data; and `in` says so. -/
theorem C39_names {required : List Name} {cols : Dict Name (List Cell)} {labels : List Int} {colmap : Dict Name Name}
    {survey : Dict Name SVal} {fp : Option (ℝ → ℝ → ℝ → ℝ → Option ℝ → Bool)} {t : ObsTable}
    (hc : cols.keys.Nodup) (hk : colmap.keys.Nodup) (hv : colmap.values.Nodup)
    (h : ObsTable.init required (fun x => .ok x) cols labels colmap survey fp = .ok t) (c : Name) (data : List Cell)
    (hm : (c, data) ∈ cols) :
    t.getItem c = .ok data ∧ t.contains c = true ∧
    ∀ k, (k, c) ∈ colmap → t.getItem k = .ok data ∧ t.contains k = true := by
  obtain ⟨nm, hr, hcols, -⟩ := init_cols h
  obtain ⟨s1, s2, s3⟩ := remap_spec cols.keys colmap [] [] nm t.invColmap [] (by simp) (by simp) (by simp) hr
  simp only [List.nil_append] at s1 s3
  have hck : c ∈ cols.keys := List.mem_map_of_mem (f := (·.1)) hm
  have hg := get?_rename hc hk hr hm
  rw [← hcols] at hg
  have hcont : ∀ n, (∃ d, t.getItem n = .ok d) → t.contains n = true := by
    rintro n ⟨d, hd⟩
    unfold getItem at hd
    unfold ObsTable.contains Dict.has
    cases h1 : t.cols.get? n with
    | some x => simp
    | none =>
      rw [h1] at hd
      simp only [Option.isSome_none, Bool.false_eq_true, if_false]
      cases h2 : t.invColmap.get? n with
      | none => rw [h2] at hd; cases hd
      | some k =>
        rw [h2] at hd
        simp only at hd ⊢
        cases h3 : t.cols.get? k with
        | none => rw [h3] at hd; cases hd
        | some x => rfl
  have hkey : ∀ k, (k, c) ∈ colmap → nm.get? c = some k := by
    intro k hkc
    cases hn : nm.get? c with
    | none =>
      have := s3 k c hkc
      rw [s2 c hck, hn] at this
      exact absurd rfl this
    | some k' =>
      have hk'c := (s1 c k' hn).1
      have : (k', c) = (k, c) := by
        have hinj := List.inj_on_of_nodup_map (f := fun (q : Name × Name) => q.2) hv
        exact hinj hk'c hkc rfl
      cases this; rfl
  have horig : t.getItem c = .ok data := by
    cases hn : nm.get? c with
    | none =>
      rw [hn] at hg
      simp only [Option.getD_none] at hg
      unfold getItem
      rw [hg]
    | some k =>
      rw [hn] at hg
      simp only [Option.getD_some] at hg
      by_cases hkc : k = c
      · subst hkc; unfold getItem; rw [hg]
      · have hnone : t.cols.get? c = none := by
          rw [Dict.get?_eq_none_iff, hcols]
          intro hmem
          obtain ⟨q, hq, e⟩ := List.mem_map.1 hmem
          obtain ⟨q', hq', rfl⟩ := List.mem_map.1 hq
          simp only at e
          have hq'k : q'.1 ∈ cols.keys := List.mem_map_of_mem (f := (·.1)) hq'
          cases hn' : nm.get? q'.1 with
          | none =>
            rw [hn'] at e
            simp only [Option.getD_none] at e
            rw [e, hn] at hn'
            cases hn'
          | some k' =>
            rw [hn'] at e
            simp only [Option.getD_some] at e
            subst e
            obtain ⟨_, _, h' | h'⟩ := s1 _ _ hn'
            · exact h' hck
            · rw [← h', hn] at hn'
              exact hkc (by cases hn'; rfl)
        unfold getItem
        rw [hnone, s2 c hck, hn]
        simp only [hg]
  refine ⟨horig, hcont c ⟨_, horig⟩, ?_⟩
  intro k hkc
  have hn := hkey k hkc
  rw [hn] at hg
  simp only [Option.getD_some] at hg
  have : t.getItem k = .ok data := by unfold getItem; rw [hg]
  exact ⟨this, hcont k ⟨_, this⟩⟩

/-- C39: a column mapped onto the name of another existing column raises ValueError, so no column is lost;
and a table without one of the required columns is rejected with KeyError (if the mapping itself is legal). -/
theorem C39_rejects {required : List Name} {cols : Dict Name (List Cell)} {labels : List Int} {colmap : Dict Name Name}
    {survey : Dict Name SVal} {fp : Option (ℝ → ℝ → ℝ → ℝ → Option ℝ → Bool)} {zp} :
    ((∃ k v, (k, v) ∈ colmap ∧ v ∈ cols.keys ∧ k ∈ cols.keys ∧ k ≠ v) →
      ObsTable.init required zp cols labels colmap survey fp = .error .valueError) ∧
    (∀ nm inv, remap cols.keys colmap [] [] = .ok (nm, inv) → (∃ c ∈ required, c ∉ (rename nm cols).keys) →
      ObsTable.init required zp cols labels colmap survey fp = .error .keyError) := by
  constructor
  · rintro ⟨k, v, hm, hv, hk, hne⟩
    have key : ∀ (l : List (Name × Name)) (a b : Dict Name Name), (k, v) ∈ l → remap cols.keys l a b = .error .valueError := by
      intro l
      induction l with
      | nil => intro a b h; simp at h
      | cons q l ih =>
        intro a b h
        obtain ⟨k', v'⟩ := q
        simp only [remap]
        rcases List.mem_cons.1 h with e | h
        · cases e; rw [if_pos hv, if_pos ⟨hk, hne⟩]
        · split
          · split
            · rfl
            · exact ih _ _ h
          · exact ih _ _ h
    unfold ObsTable.init
    rw [key _ _ _ hm]
  · rintro nm inv hr ⟨c, hc, hnot⟩
    unfold ObsTable.init
    rw [hr]
    simp only
    rw [if_neg]
    rw [List.all_eq_true]
    intro hall
    exact hnot ((Dict.has_iff _ _).1 (hall c hc))

/-- C39: add_column without overwrite raises KeyError when the table has a column of that name; when it
succeeds the column is there (a scalar being repeated for every row) and every other column of the table is
unchanged. -/
theorem C39_add (t : ObsTable) (name : Name) (v : ColArg) (o : Bool) :
    (name ∈ t.cols.keys → t.addColumn name v = .error .keyError) ∧
    ∀ t', t.addColumn name v o = .ok t' →
      (∃ l, t'.cols.get? name = some l ∧ l.length = t.len ∧
        (match v with | .scalar c => ∀ x ∈ l, x = c | .column c => l = c)) ∧
      ∀ other, other ≠ name → t'.cols.get? other = t.cols.get? other := by
  constructor
  · intro h
    unfold addColumn
    rw [if_pos ⟨(Dict.has_iff _ _).2 h, rfl⟩]
  · intro t' h
    obtain ⟨_, l, hl, rfl, hv⟩ := addColumn_ok h
    refine ⟨⟨l, by simp, hl, ?_⟩, fun other ho => Dict.get?_set_ne _ _ (Ne.symm ho)⟩
    cases v with
    | scalar c => simp only at hv ⊢; subst hv; intro x hx; exact (List.mem_replicate.1 hx).2
    | column c => exact hv

/-- The hypotheses of `C39_names` are met: a table with a column `mjd` mapped to `time`. -/
def mjdRow : Dict Name (List Cell) := [("ra".toList, [.num 0]), ("dec".toList, [.num 0]), ("mjd".toList, [.num 7])]

noncomputable def mjdTable : ObsTable :=
  ⟨[("ra".toList, [.num 0]), ("dec".toList, [.num 0]), ("time".toList, [.num 7])], [0],
   [("mjd".toList, "time".toList)], [], [], [toCart 0 0], none⟩

theorem mjdTable_init : ObsTable.init baseRequired (fun t => .ok t) mjdRow [0] [("time".toList, "mjd".toList)] [] none =
    .ok mjdTable := by
  have hm : remap mjdRow.keys [("time".toList, "mjd".toList)] [] [] =
      .ok ([("mjd".toList, "time".toList)], [("mjd".toList, "time".toList)]) := by
    simp only [remap]
    rw [if_pos (by decide), if_neg (by decide)]
    rfl
  have h3 : rename [("mjd".toList, "time".toList)] mjdRow = mjdTable.cols := by
    simp [rename, mjdRow, mjdTable, Dict.get?]
  unfold ObsTable.init
  rw [hm]
  simp only [h3]
  rw [if_pos (by decide)]
  have h4 : mjdTable.cols.get? "filter".toList = none := rfl
  simp only [uniqueFilters, h4]
  rw [if_neg (by simp [ObsTable.contains, mjdTable, Dict.has, Dict.get?])]
  have h1 : numCol mjdTable.cols "ra".toList = .ok [0] := rfl
  have h2 : numCol mjdTable.cols "dec".toList = .ok [0] := rfl
  simp only [buildTree, h1, h2]
  rfl

example : mjdTable.getItem "time".toList = .ok [.num 7] ∧ mjdTable.getItem "mjd".toList = .ok [.num 7] := by
  have := C39_names (by decide) (by decide) (by decide) mjdTable_init "mjd".toList [.num 7] (by simp [mjdRow])
  exact ⟨(this.2.2 _ (by simp)).1, this.1⟩

/-- C39 fails for add_column under the original name of a mapped column: `mjd` is in the table, yet adding a
column `mjd` raises nothing and replaces the data found under that name. -/
theorem C39_add_counterexample : mjdTable.contains "mjd".toList = true ∧ mjdTable.getItem "mjd".toList = .ok [.num 7] ∧
    ∃ t', mjdTable.addColumn "mjd".toList (.scalar (.num 9)) = .ok t' ∧ t'.getItem "mjd".toList = .ok [.num 9] := by
  refine ⟨by simp [ObsTable.contains, mjdTable, Dict.has, Dict.get?], by simp [ObsTable.getItem, mjdTable, Dict.get?], ?_⟩
  refine ⟨_, rfl, ?_⟩
  simp [ObsTable.getItem, mjdTable, Dict.get?, Dict.set, ObsTable.len]

/-- C39 fails when one column is given two standard names: only the last one is used, so here the required
name `time` is missing and the constructor raises KeyError. -/
theorem C39_two_names_counterexample : ObsTable.init baseRequired (fun t => .ok t) mjdRow [0]
    [("time".toList, "mjd".toList), ("t".toList, "mjd".toList)] [] none = .error .keyError := by
  have hm : remap mjdRow.keys [("time".toList, "mjd".toList), ("t".toList, "mjd".toList)] [] [] =
      .ok ([("mjd".toList, "t".toList)], [("mjd".toList, "t".toList)]) := by
    simp only [remap]
    rw [if_pos (by decide), if_neg (by decide), if_pos (by decide), if_neg (by decide)]
    rfl
  refine (C39_rejects (required := baseRequired)).2 _ _ hm ⟨"time".toList, by simp [baseRequired], ?_⟩
  simp [rename, mjdRow, Dict.get?, Dict.keys]

/-! ## C68 -/

/-- The value a survey constant gives to a filter: the number itself, or the entry of the dictionary. -/
def constantFor : SVal → Name → Option ℝ
  | .num x, _ => some x
  | .perFilter d, f => match d.get? f with
    | some (.num x) => some x
    | _ => none
  | _, _ => none

theorem perFilter_get {fs : List Name} {v : SVal} {f : Name} (hf : f ∈ fs) {x : ℝ} :
    (perFilter fs v).get? f = some (.num x) ↔ constantFor v f = some x := by
  cases v with
  | none => simp [perFilter, constantFor]
  | text s => simp [perFilter, constantFor]
  | num y =>
    have : (perFilter fs (.num y)).get? f = some (.num y) := by
      unfold perFilter
      induction fs with
      | nil => simp at hf
      | cons g fs ih =>
        simp only [List.map_cons, Dict.get?_cons]
        by_cases hg : g = f
        · simp [hg]
        · rw [if_neg hg]; exact ih (by simpa [Ne.symm hg] using hf)
    rw [this]
    simp [constantFor]
  | perFilter d =>
    simp only [perFilter, constantFor]
    cases h : d.get? f with
    | none => simp
    | some c => cases c <;> simp

theorem fillFilters_spec (cp : Bool) (rows : List Name) (value : Dict Name Cell) : ∀ (fs : List Name) (out res : List ℝ),
    out.length = rows.length → fillFilters cp rows value fs out = .ok res →
    res.length = rows.length ∧
    (∀ f ∈ fs, ∃ x, value.get? f = some (.num x) ∧ (cp = true → 0 < x)) ∧
    ∀ (i : Nat) (f : Name), rows[i]? = some f →
      (f ∈ fs → ∃ x, value.get? f = some (.num x) ∧ res[i]? = some x) ∧ (f ∉ fs → res[i]? = out[i]?) := by
  intro fs
  induction fs with
  | nil => intro out res hl h; cases h; exact ⟨hl, by simp, by simp⟩
  | cons g fs ih =>
    intro out res hl h
    simp only [fillFilters] at h
    cases hg : value.get? g with
    | none => rw [hg] at h; cases h
    | some c =>
      rw [hg] at h
      cases c with
      | str s => cases h
      | num x =>
        simp only at h
        split at h
        · cases h
        · rename_i hpos
          obtain ⟨a, b, c⟩ := ih _ res (by simp [hl]) h
          refine ⟨a, ?_, ?_⟩
          · intro f hf
            rcases List.mem_cons.1 hf with rfl | hf
            · refine ⟨x, hg, fun hcp => ?_⟩
              by_contra hx
              exact hpos ⟨hcp, not_lt.1 hx⟩
            · exact b f hf
          · intro i f hr
            obtain ⟨c1, c2⟩ := c i f hr
            have hi : i < rows.length := (List.getElem?_eq_some_iff.1 hr).1
            have ho : (List.zipWith (fun r y => if r = g then x else y) rows out)[i]? =
                some (if f = g then x else out[i]'(by omega)) := by
              rw [List.getElem?_zipWith, hr, List.getElem?_eq_getElem (show i < out.length by omega)]
            constructor
            · intro hf
              by_cases hfs : f ∈ fs
              · exact c1 hfs
              · have : f = g := (List.mem_cons.1 hf).resolve_right hfs
                subst this
                refine ⟨x, hg, ?_⟩
                rw [c2 hfs, ho]; simp
            · intro hf
              simp only [List.mem_cons, not_or] at hf
              rw [c2 hf.2, ho, if_neg hf.1, List.getElem?_eq_getElem]

/-- C68. When a survey constant is turned into a column (the table has a filter column, and its recorded
filters cover it), every row gets the value the constant has for the filter of that row; the values are
positive if that was asked for; no other column changes. -/
theorem C68_constant_partial {t t' : ObsTable} {name : Name} {cp b : Bool} (h : t.assignConstant name cp = .ok (t', b))
    (hn : name ∉ t.cols.keys) {v : SVal} (hv : t.survey.get? name = some v) (hv' : v ≠ .none) {rows : List Name}
    (hf : t.cols.get? "filter".toList = some (rows.map Cell.str)) (hl : rows.length = t.len)
    (hcover : ∀ f ∈ rows, f ∈ t.filters) :
    b = true ∧ (∃ col : List ℝ, t'.cols.get? name = some (col.map Cell.num) ∧ col.length = rows.length ∧
      ∀ (i : Nat) (f : Name), rows[i]? = some f → ∃ x, constantFor v f = some x ∧ col[i]? = some x ∧ (cp = true → 0 < x)) ∧
    ∀ other, other ≠ name → t'.cols.get? other = t.cols.get? other := by
  have hmap : (rows.map Cell.str).mapM Cell.str? = .ok rows := by
    clear hf hl hcover
    induction rows with
    | nil => rfl
    | cons x rows ih => simp only [List.map_cons, List.mapM_cons, ih]; rfl
  have hn' : t.cols.has name = false := (Dict.has_eq_false_iff _ _).2 hn
  unfold assignConstant at h
  rw [hn', hv, hf] at h
  simp only [Bool.false_eq_true, if_false, hmap] at h
  have key : (match fillFilters cp rows (perFilter t.filters v) t.filters (List.replicate t.len 0) with
      | .error e => .error e
      | .ok out => match t.addColumn name (.column (out.map .num)) with
        | .error e => .error e
        | .ok t => .ok (t, true)) = Except.ok (t', b) := by
    cases v with
    | none => exact absurd rfl hv'
    | num x => exact h
    | perFilter d => exact h
    | text s => exact h
  clear h
  cases hfill : fillFilters cp rows (perFilter t.filters v) t.filters (List.replicate t.len 0) with
  | error e => rw [hfill] at key; cases key
  | ok out =>
    rw [hfill] at key
    simp only at key
    obtain ⟨a, b1, c⟩ := fillFilters_spec cp rows _ _ _ out (by simp [hl]) hfill
    cases hadd : t.addColumn name (.column (out.map .num)) with
    | error e => rw [hadd] at key; cases key
    | ok t'' =>
      rw [hadd] at key
      cases key
      obtain ⟨_, l, hll, rfl, hl'⟩ := addColumn_ok hadd
      simp only at hl'
      subst hl'
      refine ⟨rfl, ⟨out, by simp, a, ?_⟩, fun other ho => Dict.get?_set_ne _ _ (Ne.symm ho)⟩
      intro i f hr
      have hfm := hcover f (List.mem_of_getElem? hr)
      obtain ⟨x, hx, hres⟩ := (c i f hr).1 hfm
      refine ⟨x, (perFilter_get hfm).1 hx, hres, fun hcp => ?_⟩
      obtain ⟨y, hy, hpos⟩ := b1 f hfm
      rw [hx] at hy
      cases hy
      exact hpos hcp

/-- C68: a column of that name is left alone, and without a survey value nothing is added. -/
theorem C68_present_or_missing (t : ObsTable) (name : Name) (cp : Bool) :
    (name ∈ t.cols.keys → t.assignConstant name cp = .ok (t, true)) ∧
    (name ∉ t.cols.keys → (t.survey.get? name = none ∨ t.survey.get? name = some .none) →
      t.assignConstant name cp = .ok (t, false)) := by
  constructor
  · intro h; unfold assignConstant; rw [(Dict.has_iff _ _).2 h]; rfl
  · intro h h'
    unfold assignConstant
    rw [(Dict.has_eq_false_iff _ _).2 h]
    rcases h' with h' | h' <;> rw [h'] <;> rfl

/-- C68: a dictionary that lacks a filter of the table, or has something other than a (positive) number for
it, raises ValueError. -/
theorem C68_bad_value_raises {t : ObsTable} {name : Name} {cp : Bool} (hn : name ∉ t.cols.keys) {d : Dict Name Cell}
    (hv : t.survey.get? name = some (.perFilter d)) {rows : List Name}
    (hf : t.cols.get? "filter".toList = some (rows.map Cell.str)) {f : Name} (hft : f ∈ t.filters)
    (hbad : d.get? f = none ∨ (∃ s, d.get? f = some (.str s)) ∨ cp = true ∧ ∃ x, x ≤ 0 ∧ d.get? f = some (.num x)) :
    t.assignConstant name cp = .error .valueError := by
  have hmap : (rows.map Cell.str).mapM Cell.str? = .ok rows := by
    clear hf
    induction rows with
    | nil => rfl
    | cons x rows ih => simp only [List.map_cons, List.mapM_cons, ih]; rfl
  have key : ∀ (fs : List Name) (out : List ℝ), f ∈ fs → fillFilters cp rows d fs out = .error .valueError := by
    intro fs
    induction fs with
    | nil => intro out h; simp at h
    | cons g fs ih =>
      intro out h
      simp only [fillFilters]
      by_cases hgf : f = g
      · subst hgf
        rcases hbad with hb | ⟨s, hb⟩ | ⟨hcp, x, hx, hb⟩
        · rw [hb]
        · rw [hb]
        · rw [hb]; simp only; rw [if_pos ⟨hcp, hx⟩]
      · have hfs : f ∈ fs := (List.mem_cons.1 h).resolve_left hgf
        split
        · rfl
        · rfl
        · split
          · rfl
          · exact ih _ hfs
  unfold assignConstant
  rw [(Dict.has_eq_false_iff _ _).2 hn, hv, hf]
  simp only [Bool.false_eq_true, if_false, hmap, perFilter]
  rw [key _ _ hft]

/-- C68 fails for a table without a filter column: a constant that is a single positive number becomes a
column of zeros. -/
theorem C68_no_filter_counterexample (t : ObsTable) (name : Name) (x : ℝ) (hn : name ∉ t.cols.keys)
    (hv : t.survey.get? name = some (.num x)) (hf : t.cols.get? "filter".toList = none) (hfs : t.filters = []) :
    ∃ t', t.assignConstant name = .ok (t', true) ∧ t'.cols.get? name = some (List.replicate t.len (.num 0)) := by
  have hn' := (Dict.has_eq_false_iff _ _).2 hn
  refine ⟨{ t with cols := t.cols.set name (List.replicate t.len (.num 0)) }, ?_, by simp⟩
  unfold assignConstant
  rw [hn', hv, hf, hfs]
  simp [fillFilters, addColumn, hn', hfs]

/-- The hypotheses of `C68_constant_partial` are met by the table of two filters with a dictionary. -/
example : ∃ t', ({ twoTable with survey := [("zp".toList, .perFilter [("r".toList, .num 3), ("g".toList, .num 2)])] } :
    ObsTable).assignConstant "zp".toList = .ok (t', true) ∧
    t'.cols.get? "zp".toList = some [.num 2, .num 3] := by
  refine ⟨{ twoTable with
      survey := [("zp".toList, .perFilter [("r".toList, .num 3), ("g".toList, .num 2)])]
      cols := twoRows.set "zp".toList [.num 2, .num 3] }, ?_, ?_⟩
  · unfold assignConstant
    have h1 : twoTable.cols.has "zp".toList = false := rfl
    have h2 : twoTable.cols.get? "filter".toList = some [.str "g".toList, .str "r".toList] := rfl
    have h3 : List.mapM Cell.str? [.str "g".toList, .str "r".toList] = .ok ["g".toList, "r".toList] := rfl
    simp only [h1, h2, h3, Bool.false_eq_true, if_false, Dict.get?, if_true]
    simp [fillFilters, perFilter, twoTable, Dict.get?, ObsTable.len, addColumn, Dict.has, twoRows, List.replicate]
    norm_num
  · simp

end LCL.ObsTableProps
