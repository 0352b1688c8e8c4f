import Verif.Spec.Translate
import Verif.Props.ObsTable

/-!
# Moving everything in time: the simulation

Each step of `simulate_lightcurves` on the moved inputs is the moved step on the original ones.
-/

namespace LCL.TranslateLemmas
open LCL LCL.Translate

section dict
variable {ν : Type}

theorem get_mapAt (f : ν → ν) (k : Name) (d : Dict Name ν) (j : Name) : (mapAt f k d).get? j = if j = k then (d.get? j).map f else d.get? j := by
  induction d with
  | nil => simp [mapAt]
  | cons q d ih =>
    obtain ⟨a, v⟩ := q
    replace ih : Dict.get? (List.map (fun q => (q.1, if q.1 = k then f q.2 else q.2)) d) j = _ := ih
    simp only [mapAt, List.map_cons, Dict.get?_cons, ih]
    by_cases h : a = j
    · subst h
      by_cases hk : a = k <;> simp [hk]
    · simp [h]

theorem get_mapAt_ne (f : ν → ν) {k j : Name} (h : j ≠ k) (d : Dict Name ν) : (mapAt f k d).get? j = d.get? j := by
  rw [get_mapAt, if_neg h]

theorem get_mapAt_self (f : ν → ν) (k : Name) (d : Dict Name ν) : (mapAt f k d).get? k = (d.get? k).map f := by
  rw [get_mapAt, if_pos rfl]

theorem has_mapAt (f : ν → ν) (k : Name) (d : Dict Name ν) (j : Name) : (mapAt f k d).has j = d.has j := by
  unfold Dict.has
  rw [get_mapAt]
  split <;> simp

theorem mapAt_set (f : ν → ν) (k : Name) (d : Dict Name ν) (j : Name) (v : ν) : mapAt f k (d.set j v) = (mapAt f k d).set j (if j = k then f v else v) := by
  induction d with
  | nil => simp [mapAt, Dict.set]
  | cons q d ih =>
    obtain ⟨a, w⟩ := q
    by_cases h : a = j
    · subst h
      simp [mapAt, Dict.set]
    · replace ih : List.map (fun q => (q.1, if q.1 = k then f q.2 else q.2)) (Dict.set d j v) = _ := ih
      simp only [mapAt, Dict.set, h, if_false, List.map_cons, ih]

end dict

variable {Δ : ℝ}

theorem cols_later (t : ObsTable) : (laterTable Δ t).cols = mapAt (fun c => c.map (laterCell Δ)) "time".toList t.cols := rfl

theorem inv_later (t : ObsTable) : (laterTable Δ t).invColmap = t.invColmap := rfl

theorem mapM_len {β γ : Type} {f : β → Except Err γ} : ∀ {l : List β} {l' : List γ}, l.mapM f = .ok l' → l'.length = l.length
  | [], _, h => by cases h; rfl
  | x :: l, l', h => by
    rw [List.mapM_cons] at h
    cases hx : f x with
    | error e => rw [hx] at h; cases h
    | ok y =>
      rw [hx] at h
      cases hl : l.mapM f with
      | error e => rw [hl] at h; cases h
      | ok ys =>
        rw [hl] at h
        cases h
        simp [mapM_len hl]

theorem num_later (c : List Cell) : (c.map (laterCell Δ)).mapM Cell.num? = (c.mapM Cell.num?).map (later Δ) := by
  induction c with
  | nil => rfl
  | cons x c ih =>
    simp only [List.map_cons, List.mapM_cons, ih]
    cases x with
    | str s => rfl
    | num x =>
      simp only [laterCell, Cell.num?]
      cases c.mapM Cell.num? <;> rfl

theorem str_later (c : List Cell) : (c.map (laterCell Δ)).mapM Cell.str? = c.mapM Cell.str? := by
  induction c with
  | nil => rfl
  | cons x c ih =>
    simp only [List.map_cons, List.mapM_cons, ih]
    cases x <;> rfl

theorem numCol_ne {k : Name} (h : k ≠ "time".toList) (t : ObsTable) : ObsTable.numCol (laterTable Δ t).cols k = ObsTable.numCol t.cols k := by
  unfold ObsTable.numCol
  rw [cols_later]
  rw [get_mapAt_ne _ h]

theorem numCol_time (t : ObsTable) : ObsTable.numCol (laterTable Δ t).cols "time".toList = (ObsTable.numCol t.cols "time".toList).map (later Δ) := by
  unfold ObsTable.numCol
  rw [cols_later]
  rw [get_mapAt_self]
  cases t.cols.get? "time".toList with
  | none => rfl
  | some c => exact num_later c

theorem timeCol_later {t : ObsTable} {c : List Cell} (h : t.cols.get? "time".toList = some c) : timeCol (laterTable Δ t) = (timeCol t).map (later Δ) := by
  unfold timeCol ObsTable.getItem
  rw [cols_later]
  rw [get_mapAt_self, h]
  exact num_later c

theorem textCol_later (t : ObsTable) : textCol (laterTable Δ t) = textCol t := by
  unfold textCol ObsTable.getItem
  rw [cols_later]
  rw [get_mapAt_ne _ (by decide)]
  cases t.cols.get? "filter".toList with
  | some c => rfl
  | none =>
    dsimp only
    rw [inv_later]
    cases t.invColmap.get? "filter".toList with
    | none => rfl
    | some k =>
      dsimp only
      rw [get_mapAt]
      by_cases hk : k = "time".toList
      · rw [if_pos hk]
        cases t.cols.get? k with
        | none => rfl
        | some c => exact str_later c
      · rw [if_neg hk]

theorem contains_later (t : ObsTable) (c : Name) : (laterTable Δ t).contains c = t.contains c := by
  unfold ObsTable.contains
  rw [cols_later]
  simp only [has_mapAt, inv_later]

theorem getItem_later {t : ObsTable} {c : Name} (h : NotTime t c) : (laterTable Δ t).getItem c = t.getItem c := by
  unfold ObsTable.getItem
  rw [cols_later]
  rw [get_mapAt_ne _ h.1]
  cases hc : t.cols.get? c with
  | some c => rfl
  | none =>
    dsimp only
    rw [inv_later]
    cases hk : t.invColmap.get? c with
    | none => rfl
    | some k =>
      dsimp only
      have hk' : k ≠ "time".toList := fun e => h.2 hc (e ▸ hk)
      rw [get_mapAt_ne _ hk']

/-! ### The search -/

/-- A bound, moved. -/
def laterArg (Δ : ℝ) : ObsTable.TArg → ObsTable.TArg
  | .none => .none
  | .scalar x => .scalar (x + Δ)
  | .arr l => .arr (later Δ l)

def laterBounds (Δ : ℝ) (l : List (Option ℝ)) : List (Option ℝ) := l.map fun b => b.map fun x => x + Δ

theorem values_later (n : Nat) (a : ObsTable.TArg) : (laterArg Δ a).values n = (a.values n).map (laterBounds Δ) := by
  cases a with
  | none => simp [laterArg, ObsTable.TArg.values, Except.map, laterBounds]
  | scalar x =>
    simp only [laterArg, ObsTable.TArg.values]
    split <;> simp [Except.map, laterBounds]
  | arr l =>
    simp only [laterArg, ObsTable.TArg.values, later, List.length_map]
    split <;> simp [Except.map, laterBounds, Function.comp_def]

theorem bounds_later (lo hi : Option ℝ) (x : ℝ) :
    (ObsTable.aboveBound (lo.map fun y => y + Δ) (x + Δ) && ObsTable.belowBound (hi.map fun y => y + Δ) (x + Δ)) = (ObsTable.aboveBound lo x && ObsTable.belowBound hi x) := by
  cases lo <;> cases hi <;> simp [ObsTable.aboveBound, ObsTable.belowBound]

theorem timeFilter_later {times : List ℝ} : ∀ (los his : List (Option ℝ)) (inds : List (List Nat)), (∀ s ∈ inds, ∀ i ∈ s, i < times.length) →
    ObsTable.timeFilter (later Δ times) (laterBounds Δ los) (laterBounds Δ his) inds = ObsTable.timeFilter times los his inds
  | [], _, inds, _ => by simp [ObsTable.timeFilter, laterBounds]
  | _ :: _, [], inds, _ => by simp [ObsTable.timeFilter, laterBounds]
  | _ :: _, _ :: _, [], _ => by simp [ObsTable.timeFilter, laterBounds]
  | lo :: los, hi :: his, s :: inds, h => by
    have ih := timeFilter_later los his inds fun s hs => h s (List.mem_cons_of_mem _ hs)
    simp only [laterBounds, List.map_cons, ObsTable.timeFilter] at ih ⊢
    rw [ih]
    congr 1
    apply List.filter_congr
    intro i hi'
    have hl := h s (List.mem_cons_self ..) i hi'
    have : (later Δ times).getD i 0 = times.getD i 0 + Δ := by
      simp [later, List.getD_eq_getElem?_getD, hl]
    rw [this]
    exact bounds_later _ _ _

theorem isNone_later (a : ObsTable.TArg) : (laterArg Δ a).isNone = a.isNone := by cases a <;> rfl

theorem timeStep_later {t : ObsTable} {c : List Cell} (hc : t.cols.get? "time".toList = some c) (tmin tmax : ObsTable.TArg) (inds : List (List Nat))
    (h : ∀ s ∈ inds, ∀ i ∈ s, i < c.length) : (laterTable Δ t).timeStep (laterArg Δ tmin) (laterArg Δ tmax) inds = t.timeStep tmin tmax inds := by
  unfold ObsTable.timeStep
  rw [isNone_later, isNone_later, numCol_time, values_later, values_later]
  split
  · rfl
  · cases ht : ObsTable.numCol t.cols "time".toList with
    | error e => rfl
    | ok times =>
      dsimp only [Except.map]
      cases tmin.values inds.length with
      | error e => rfl
      | ok los =>
        dsimp only
        cases tmax.values inds.length with
        | error e => rfl
        | ok his =>
          dsimp only
          rw [timeFilter_later]
          have hlen : times.length = c.length := by
            unfold ObsTable.numCol at ht
            rw [hc] at ht
            exact mapM_len ht
          rw [hlen]
          exact h

theorem footprint_later (t : ObsTable) (qs : List (ℝ × ℝ)) (inds : List (List Nat)) : (laterTable Δ t).footprintStep qs inds = t.footprintStep qs inds := by
  unfold ObsTable.footprintStep
  have h1 := numCol_ne (Δ := Δ) (k := "ra".toList) (by decide) t
  have h2 := numCol_ne (Δ := Δ) (k := "dec".toList) (by decide) t
  have h3 := numCol_ne (Δ := Δ) (k := "rotation".toList) (by decide) t
  have h4 : (laterTable Δ t).cols.has "rotation".toList = t.cols.has "rotation".toList := has_mapAt _ _ _ _
  have h5 : (laterTable Δ t).footprint = t.footprint := rfl
  rw [h1, h2, h3, h4, h5]

theorem rangeSearch_later {t : ObsTable} {c : List Cell} (hc : t.cols.get? "time".toList = some c) (hl : t.tree.length ≤ c.length) (ra dec : ObsTable.QArg) (rad : Option ℝ)
    (tmin tmax : ObsTable.TArg) : (laterTable Δ t).rangeSearch ra dec rad (laterArg Δ tmin) (laterArg Δ tmax) = t.rangeSearch ra dec rad tmin tmax := by
  unfold ObsTable.rangeSearch
  have h1 : (laterTable Δ t).radius = t.radius := rfl
  have h2 : (laterTable Δ t).tree = t.tree := rfl
  simp only [h1, h2, footprint_later]
  cases ObsTable.queryPoints ra dec with
  | error e => rfl
  | ok qs =>
    dsimp only
    cases (rad <|> t.radius) with
    | none => rfl
    | some r =>
      dsimp only
      rw [timeStep_later hc]
      intro s hs i hi
      obtain ⟨q, -, rfl⟩ := List.mem_map.1 hs
      have := (List.mem_filter.1 hi).1
      exact lt_of_lt_of_le (List.mem_range.1 this) hl

theorem zip_search (move : SState ℝ → SState ℝ) (u : ObsTable) (rad : ℝ) : ∀ (states : List SimState) (l : List (List Nat)),
    List.zipWith (fun (s : SimState) rows => ({ rows := rows, untyped := match s.ra, s.dec with
        | some ra, some dec => (ObsTable.queryBall u.tree (ObsTable.toCart ra dec) (ObsTable.chordRadius rad)).isEmpty
        | _, _ => false } : ObsIndex)) (states.map (laterState Δ move)) l
      = List.zipWith (fun (s : SimState) rows => ({ rows := rows, untyped := match s.ra, s.dec with
        | some ra, some dec => (ObsTable.queryBall u.tree (ObsTable.toCart ra dec) (ObsTable.chordRadius rad)).isEmpty
        | _, _ => false } : ObsIndex)) states l
  | [], _ => rfl
  | _ :: _, [] => rfl
  | s :: ss, x :: l => by
    simp only [List.map_cons, List.zipWith_cons_cons]
    rw [zip_search move u rad ss l]
    rfl

theorem searchAll_later (move : SState ℝ → SState ℝ) {t : ObsTable} {c : List Cell} (hc : t.cols.get? "time".toList = some c) (hl : t.tree.length ≤ c.length) (states : List SimState)
    (tmin tmax : ObsTable.TArg) : searchAll (laterTable Δ t) (states.map (laterState Δ move)) (laterArg Δ tmin) (laterArg Δ tmax) = searchAll t states tmin tmax := by
  unfold searchAll
  have h1 : (states.map (laterState Δ move)).map (·.ra) = states.map (·.ra) := by simp [laterState, Function.comp_def]
  have h2 : (states.map (laterState Δ move)).map (·.dec) = states.map (·.dec) := by simp [laterState, Function.comp_def]
  rw [h1, h2, rangeSearch_later hc hl]
  cases t.rangeSearch (.arr (states.map (·.ra))) (.arr (states.map (·.dec))) none tmin tmax with
  | error e => rfl
  | ok o =>
    cases o with
    | one l => rfl
    | many l =>
      dsimp only
      have h3 : (laterTable Δ t).radius = t.radius := rfl
      have h4 : (laterTable Δ t).tree = t.tree := rfl
      rw [h3]
      cases t.radius with
      | none => rfl
      | some rad =>
        dsimp only
        rw [h4]
        exact congrArg Except.ok (zip_search move t rad states l)

/-! ### The windows -/

def laterT0 (Δ : ℝ) : T0Arg → T0Arg
  | .none => .none
  | .scalar x => .scalar (x + Δ)
  | .arr l => .arr (laterBounds Δ l)

theorem mapM_id_later : ∀ l : List (Option ℝ), (laterBounds Δ l).mapM id = (l.mapM id).map (later Δ)
  | [] => rfl
  | x :: l => by
    have ih := mapM_id_later l
    simp only [laterBounds, List.map_cons, List.mapM_cons, id] at ih ⊢
    rw [ih]
    cases x with
    | none => rfl
    | some x => cases List.mapM id l <;> rfl

theorem windowBound_later (op : ℝ → ℝ → ℝ) (hop : ∀ t b, op (t + Δ) b = op t b + Δ) (l : List (Option ℝ)) (b : Option ℝ) :
    windowBound op (laterBounds Δ l) b = (windowBound op l b).map (laterArg Δ) := by
  cases b with
  | none => rfl
  | some b =>
    unfold windowBound windowSide
    rw [mapM_id_later]
    cases l.mapM id with
    | none => rfl
    | some l => simp [Except.map, laterArg, later, hop, Function.comp_def]

/-- Both bounds, moved. -/
def laterWin (Δ : ℝ) (p : ObsTable.TArg × ObsTable.TArg) : ObsTable.TArg × ObsTable.TArg := (laterArg Δ p.1, laterArg Δ p.2)

theorem windowPair_later (l o : List (Option ℝ)) : windowPair (laterBounds Δ l) o = (windowPair l o).map (laterWin Δ) := by
  unfold windowPair
  split
  · rename_i a b
    rw [windowBound_later _ (fun t b => by ring), windowBound_later _ (fun t b => by ring)]
    cases windowBound (· - ·) l a with
    | error e => rfl
    | ok s =>
      dsimp only [Except.map]
      cases windowBound (· + ·) l b <;> rfl
  · rfl

theorem windows_later (t0 : T0Arg) (o : Option (List (Option ℝ))) : getTimeWindows (laterT0 Δ t0) o = (getTimeWindows t0 o).map (laterWin Δ) := by
  cases o with
  | none => rfl
  | some o =>
    cases t0 with
    | none => rfl
    | scalar x => exact windowPair_later [some x] o
    | arr l => exact windowPair_later l o

theorem t0Of_later (move : SState ℝ → SState ℝ) (states : List SimState) : t0Of (states.map (laterState Δ move)) = laterT0 Δ (t0Of states) := by
  match states with
  | [] => rfl
  | [s] =>
    show (match s.t0.map (fun x => x + Δ) with | none => T0Arg.none | some x => .scalar x) = laterT0 Δ (match s.t0 with | none => T0Arg.none | some x => .scalar x)
    cases s.t0 <;> rfl
  | s :: s' :: ss => simp [t0Of, laterT0, laterBounds, laterState, Function.comp_def]

/-! ### The loops -/

variable {R : Type}

/-- The survey with its visits later. -/
def laterSurvey (Δ : ℝ) (s : Survey R) : Survey R := ⟨laterTable Δ s.table, s.eval, s.error⟩

def laterPrepared (Δ : ℝ) (p : Prepared R) : Prepared R := ⟨laterSurvey Δ p.survey, later Δ p.times, p.filters, p.matched⟩

theorem mapM_get_later (times : List ℝ) : ∀ rows : List Nat, rows.mapM (fun i => (later Δ times)[i]?) = (rows.mapM (fun i => times[i]?)).map (later Δ)
  | [] => rfl
  | i :: rows => by
    have ih := mapM_get_later times rows
    simp only [List.mapM_cons, ih]
    have : (later Δ times)[i]? = (times[i]?).map fun t => t + Δ := by simp [later]
    rw [this]
    cases times[i]? with
    | none => rfl
    | some x => cases rows.mapM (fun i => times[i]?) <;> rfl

theorem gather_map {β γ : Type} (f : β → γ) : ∀ (m : List Bool) (l : List β), gather m (l.map f) = (gather m l).map f
  | [], [] => by simp [gather]
  | [], _ :: _ => by simp [gather]
  | _ :: _, [] => by simp [gather]
  | true :: m, x :: l => by
    have ih := gather_map f m l
    simp only [gather] at ih ⊢
    simp [ih]
  | false :: m, x :: l => by
    have ih := gather_map f m l
    simp only [gather] at ih ⊢
    simp [ih]

theorem selectObs_later {mask mask' : Option (List ℝ → SState ℝ → List Bool)} {st st' : SState ℝ} (times : List ℝ) (filters : List Name) (oi : ObsIndex)
    (hm : match mask, mask' with
      | none, none => True
      | some f, some f' => ∀ ts, f' (later Δ ts) st' = f ts st
      | _, _ => False) :
    selectObs mask' (later Δ times) filters st' oi = (selectObs mask times filters st oi).map fun p => (p.1, later Δ p.2.1, p.2.2) := by
  unfold selectObs
  rw [mapM_get_later]
  split
  · rfl
  · cases oi.rows.mapM (fun i => times[i]?) with
    | none => rfl
    | some ts =>
      cases mask with
      | none =>
        cases mask' with
        | some f => exact hm.elim
        | none =>
          dsimp only [Option.map]
          cases oi.rows.mapM (fun i => filters[i]?) <;> rfl
      | some f =>
        cases mask' with
        | none => exact hm.elim
        | some f' =>
          dsimp only [Option.map] at hm ⊢
          rw [hm ts]
          cases (gather (f ts st) oi.rows).mapM (fun i => filters[i]?) with
          | none => rfl
          | some fs =>
            dsimp only [Except.map]
            rw [later, gather_map]
            rfl

/-- Columns of the nested table, moved. -/
def laterCols (Δ : ℝ) (d : Dict Name (List NCell)) : Dict Name (List NCell) := mapAt (fun c => c.map (laterNCell Δ)) "mjd".toList d

theorem extend_later (d : Dict Name (List NCell)) (c : Name) {vals vals' : List NCell} (h : vals' = if c = "mjd".toList then vals.map (laterNCell Δ) else vals) :
    extend (laterCols Δ d) c vals' = laterCols Δ (extend d c vals) := by
  subst h
  unfold extend laterCols
  rw [mapAt_set, get_mapAt]
  by_cases hc : c = "mjd".toList
  · subst hc
    rw [if_pos rfl, if_pos rfl, if_pos rfl]
    cases d.get? "mjd".toList <;> simp
  · rw [if_neg hc, if_neg hc, if_neg hc]

theorem savedCol_later {t : ObsTable} (oi : ObsIndex) (n : Nat) {c : Name} (h : NotTime t c) : savedCol (laterTable Δ t) oi n c = savedCol t oi n c := by
  unfold savedCol
  rw [contains_later, getItem_later h]

theorem savedCol_fixed {t : ObsTable} {oi : ObsIndex} {n : Nat} {c : Name} {l : List NCell} (h : savedCol t oi n c = .ok l) : l.map (laterNCell Δ) = l := by
  unfold savedCol at h
  split at h
  · split at h
    · cases h
    · split at h
      · cases h
      · split at h
        · cases h
          simp [laterNCell, Function.comp_def]
        · cases h
  · cases h
    simp [laterNCell]

theorem saveAll_later {t : ObsTable} (oi : ObsIndex) (n : Nat) : ∀ (cs : List Name) (d : Dict Name (List NCell)), (∀ c ∈ cs, NotTime t c) →
    saveAll (laterTable Δ t) oi n cs (laterCols Δ d) = (saveAll t oi n cs d).map (laterCols Δ)
  | [], _, _ => rfl
  | c :: cs, d, h => by
    unfold saveAll
    rw [savedCol_later _ _ (h c (List.mem_cons_self ..))]
    cases hs : savedCol t oi n c with
    | error e => rfl
    | ok l =>
      dsimp only
      rw [extend_later d c (vals := l) (by rw [savedCol_fixed hs, ite_self]), saveAll_later oi n cs _ fun c hc => h c (List.mem_cons_of_mem _ hc)]

/-- The masks of both runs agree. -/
def SameMask (Δ : ℝ) (move : SState ℝ → SState ℝ) (mask : Option (List ℝ → SState ℝ → List Bool)) (st : SState ℝ) : Prop :=
  ∀ f, mask = some f → ∀ ts, f (later Δ ts) (move st) = f ts st

theorem select_move {move : SState ℝ → SState ℝ} {mask : Option (List ℝ → SState ℝ → List Bool)} {st : SState ℝ} (hm : SameMask Δ move mask st) (times : List ℝ)
    (filters : List Name) (oi : ObsIndex) :
    selectObs mask (later Δ times) filters (move st) oi = (selectObs mask times filters st oi).map fun p => (p.1, later Δ p.2.1, p.2.2) := by
  apply selectObs_later
  cases mask with
  | none => exact trivial
  | some f => exact hm f rfl

/-- The moved outcome of one step. -/
def laterStep (Δ : ℝ) (p : Nested × Nat × R) : Nested × Nat × R := (laterNested Δ p.1, p.2)

theorem simulateOne_later (noise : List ℝ → List ℝ → R → Except Err (List ℝ × R)) {move : SState ℝ → SState ℝ} {mask : Option (List ℝ → SState ℝ → List Bool)}
    {saveCols : List Name} {st : SState ℝ} {s : Survey R} (hm : SameMask Δ move mask st) (he : ∀ ts fs r, s.eval (later Δ ts) fs (move st) r = s.eval ts fs st r)
    (hs : ∀ c ∈ saveCols, NotTime s.table c) (idx k : Nat) (times : List ℝ) (filters : List Name) (oi : ObsIndex) (nd : Nested) (r : R) :
    simulateOne noise mask saveCols idx k (move st) (laterSurvey Δ s) (later Δ times) filters oi (laterNested Δ nd) r
      = (simulateOne noise mask saveCols idx k st s times filters oi nd r).map (laterStep Δ) := by
  unfold simulateOne
  rw [select_move hm]
  cases selectObs mask times filters st oi with
  | error e => rfl
  | ok q =>
    obtain ⟨oi, ts, fs⟩ := q
    dsimp only [Except.map]
    show (match s.eval (later Δ ts) fs (move st) r with | .error e => _ | .ok (perfect, r) => _) = _
    rw [he]
    cases s.eval ts fs st r with
    | error e => rfl
    | ok q =>
      obtain ⟨perfect, r⟩ := q
      dsimp only [laterSurvey]
      cases s.error perfect oi.rows with
      | error e => rfl
      | ok err =>
        dsimp only
        cases noise perfect err r with
        | error e => rfl
        | ok q =>
          obtain ⟨flux, r⟩ := q
          dsimp only
          have hl : (later Δ ts).length = ts.length := by simp [later]
          have e1 : extend (laterNested Δ nd).cols "mjd".toList ((later Δ ts).map .num) = laterCols Δ (extend nd.cols "mjd".toList (ts.map .num)) :=
            extend_later _ _ (by rw [if_pos rfl]; simp [later, laterNCell, Function.comp_def])
          have e2 : ∀ (d : Dict Name (List NCell)) (c : Name) (vals : List NCell), c ≠ "mjd".toList → extend (laterCols Δ d) c vals = laterCols Δ (extend d c vals) :=
            fun d c vals hc => extend_later d c (by rw [if_neg hc])
          rw [hl, e1, e2 _ _ _ (by decide), e2 _ _ _ (by decide), e2 _ _ _ (by decide), e2 _ _ _ (by decide), e2 _ _ _ (by decide), saveAll_later oi _ _ _ hs]
          cases saveAll s.table oi ts.length saveCols _ <;> rfl

theorem simulateSurveys_later (noise : List ℝ → List ℝ → R → Except Err (List ℝ × R)) {move : SState ℝ → SState ℝ} {mask : Option (List ℝ → SState ℝ → List Bool)}
    {saveCols : List Name} {st : SState ℝ} (hm : SameMask Δ move mask st) (idx : Nat) : ∀ (ps : List (Prepared R)) (k n : Nat) (nd : Nested) (r : R),
    (∀ p ∈ ps, ∀ ts fs r, p.survey.eval (later Δ ts) fs (move st) r = p.survey.eval ts fs st r) → (∀ p ∈ ps, ∀ c ∈ saveCols, NotTime p.survey.table c) →
    simulateSurveys noise mask saveCols idx (move st) k (ps.map (laterPrepared Δ)) n (laterNested Δ nd) r
      = (simulateSurveys noise mask saveCols idx st k ps n nd r).map (laterStep Δ)
  | [], _, _, _, _, _, _ => rfl
  | p :: ps, k, n, nd, r, he, hs => by
    simp only [List.map_cons, simulateSurveys]
    have hmat : (laterPrepared Δ p).matched = p.matched := rfl
    rw [hmat]
    cases p.matched[idx]? with
    | none => rfl
    | some oi =>
      dsimp only
      have h1 := simulateOne_later noise hm (he p (List.mem_cons_self ..)) (hs p (List.mem_cons_self ..)) idx k p.times p.filters oi nd r
      have h2 : simulateOne noise mask saveCols idx k (move st) (laterPrepared Δ p).survey (laterPrepared Δ p).times (laterPrepared Δ p).filters oi (laterNested Δ nd) r
          = (simulateOne noise mask saveCols idx k st p.survey p.times p.filters oi nd r).map (laterStep Δ) := h1
      rw [h2]
      cases simulateOne noise mask saveCols idx k st p.survey p.times p.filters oi nd r with
      | error e => rfl
      | ok q =>
        obtain ⟨nd', n', r'⟩ := q
        exact simulateSurveys_later noise hm idx ps (k + 1) (n + n') nd' r' (fun p hp => he p (List.mem_cons_of_mem _ hp)) fun p hp => hs p (List.mem_cons_of_mem _ hp)

theorem simulateObjects_later (noise : List ℝ → List ℝ → R → Except Err (List ℝ × R)) {move : SState ℝ → SState ℝ} {mask : Option (List ℝ → SState ℝ → List Bool)}
    {saveCols : List Name} {ps : List (Prepared R)} (hs : ∀ p ∈ ps, ∀ c ∈ saveCols, NotTime p.survey.table c) : ∀ (states : List SimState) (idx : Nat) (nd : Nested) (r : R),
    (∀ s ∈ states, SameMask Δ move mask s.state) →
    (∀ s ∈ states, ∀ p ∈ ps, ∀ ts fs r, p.survey.eval (later Δ ts) fs (move s.state) r = p.survey.eval ts fs s.state r) →
    simulateObjects noise mask saveCols (ps.map (laterPrepared Δ)) idx (states.map (laterState Δ move)) (laterNested Δ nd) r
      = (simulateObjects noise mask saveCols ps idx states nd r).map fun q => (laterNested Δ q.1, q.2)
  | [], _, _, _, _, _ => rfl
  | s :: ss, idx, nd, r, hm, he => by
    simp only [List.map_cons, simulateObjects]
    have h1 := simulateSurveys_later noise (hm s (List.mem_cons_self ..)) idx ps 0 0 nd r (he s (List.mem_cons_self ..)) hs
    have hst : (laterState Δ move s).state = move s.state := rfl
    rw [hst, h1]
    cases simulateSurveys noise mask saveCols idx s.state 0 ps 0 nd r with
    | error e => rfl
    | ok q =>
      obtain ⟨nd', n', r'⟩ := q
      dsimp only [Except.map, laterStep]
      rw [simulateObjects_later noise hs ss (idx + 1) nd' r' (fun s h => hm s (List.mem_cons_of_mem _ h)) fun s h => he s (List.mem_cons_of_mem _ h)]
      cases simulateObjects noise mask saveCols ps (idx + 1) ss nd' r' with
      | error e => rfl
      | ok q => rfl

theorem prepare_later (move : SState ℝ → SState ℝ) {s : Survey R} {c : List Cell} (hc : s.table.cols.get? "time".toList = some c) (hl : s.table.tree.length ≤ c.length)
    (states : List SimState) (tmin tmax : ObsTable.TArg) :
    prepare (states.map (laterState Δ move)) (laterArg Δ tmin) (laterArg Δ tmax) (laterSurvey Δ s) = (prepare states tmin tmax s).map (laterPrepared Δ) := by
  unfold prepare
  have h1 : (laterSurvey Δ s).table = laterTable Δ s.table := rfl
  rw [h1, searchAll_later move hc hl, timeCol_later hc, textCol_later]
  cases searchAll s.table states tmin tmax with
  | error e => rfl
  | ok m =>
    dsimp only
    cases timeCol s.table with
    | error e => rfl
    | ok times =>
      dsimp only [Except.map]
      cases textCol s.table <;> rfl

theorem prepare_survey {states : List SimState} {tmin tmax : ObsTable.TArg} {s : Survey R} {p : Prepared R} (h : prepare states tmin tmax s = .ok p) : p.survey = s := by
  unfold prepare at h
  split at h
  · cases h
  · split at h
    · cases h
    · split at h
      · cases h
      · cases h; rfl

theorem prepareAll_later (move : SState ℝ → SState ℝ) (states : List SimState) (tmin tmax : ObsTable.TArg) : ∀ (ss : List (Survey R)),
    (∀ s ∈ ss, ∃ c, s.table.cols.get? "time".toList = some c ∧ s.table.tree.length ≤ c.length) →
    (ss.map (laterSurvey Δ)).mapM (prepare (states.map (laterState Δ move)) (laterArg Δ tmin) (laterArg Δ tmax)) = (ss.mapM (prepare states tmin tmax)).map fun ps => ps.map (laterPrepared Δ)
  | [], _ => rfl
  | s :: ss, h => by
    obtain ⟨c, hc, hl⟩ := h s (List.mem_cons_self ..)
    have ih := prepareAll_later move states tmin tmax ss fun s hs => h s (List.mem_cons_of_mem _ hs)
    simp only [List.map_cons, List.mapM_cons, prepare_later move hc hl, ih]
    cases prepare states tmin tmax s with
    | error e => rfl
    | ok p => cases ss.mapM (prepare states tmin tmax) <;> rfl

theorem prepareAll_survey (states : List SimState) (tmin tmax : ObsTable.TArg) : ∀ {ss : List (Survey R)} {ps : List (Prepared R)}, ss.mapM (prepare states tmin tmax) = .ok ps →
    ∀ p ∈ ps, p.survey ∈ ss
  | [], _, h, p, hp => by cases h; cases hp
  | s :: ss, ps, h, p, hp => by
    rw [List.mapM_cons] at h
    cases hx : prepare states tmin tmax s with
    | error e => rw [hx] at h; cases h
    | ok y =>
      rw [hx] at h
      cases hl : ss.mapM (prepare states tmin tmax) with
      | error e => rw [hl] at h; cases h
      | ok ys =>
        rw [hl] at h
        cases h
        rcases List.mem_cons.1 hp with rfl | hp
        · rw [prepare_survey hx]; exact List.mem_cons_self ..
        · exact List.mem_cons_of_mem _ (prepareAll_survey states tmin tmax hl p hp)

theorem emptyNested_later (saveCols : List Name) : laterNested Δ (emptyNested saveCols) = emptyNested saveCols := by
  have key : ∀ (cs : List Name) (d : Dict Name (List NCell)), laterCols Δ d = d →
      laterCols Δ (cs.foldl (fun (d : Dict Name (List NCell)) c => Dict.set d c []) d) = cs.foldl (fun (d : Dict Name (List NCell)) c => Dict.set d c []) d := by
    intro cs
    induction cs with
    | nil => intro d h; exact h
    | cons c cs ih =>
      intro d h
      refine ih _ ?_
      unfold laterCols at h ⊢
      rw [mapAt_set, h]
      simp
  unfold laterNested
  exact congrArg (fun d => Nested.mk d []) (key saveCols _ rfl)

theorem checkNested_later (nd : Nested) : checkNested (laterNested Δ nd) = (checkNested nd).map (laterNested Δ) := by
  unfold checkNested
  have h : (laterNested Δ nd).cols.all (fun q => q.2.length == (laterNested Δ nd).index.length) = nd.cols.all fun q => q.2.length == nd.index.length := by
    unfold laterNested mapAt
    rw [List.all_map]
    congr 1
    funext q
    dsimp only [Function.comp]
    split <;> simp
  rw [h]
  split <;> rfl

/-- The whole simulation, moved. -/
theorem simulate_later (noise : List ℝ → List ℝ → R → Except Err (List ℝ × R)) (isBand : Bool) {move : SState ℝ → SState ℝ} {mask : Option (List ℝ → SState ℝ → List Bool)}
    {saveCols : List Name} {states : List SimState} {surveys : List (Survey R)} (n : Nat) (offset : Option (List (Option ℝ))) (r : R)
    (ht : ∀ s ∈ surveys, ∃ c, s.table.cols.get? "time".toList = some c ∧ s.table.tree.length ≤ c.length)
    (hs : ∀ s ∈ surveys, ∀ c ∈ saveCols, NotTime s.table c) (hm : ∀ s ∈ states, SameMask Δ move mask s.state)
    (he : ∀ s ∈ states, ∀ v ∈ surveys, ∀ ts fs r, v.eval (later Δ ts) fs (move s.state) r = v.eval ts fs s.state r) :
    simulateLightcurves noise isBand (states.map (laterState Δ move)) (surveys.map (laterSurvey Δ)) n saveCols mask offset r
      = (simulateLightcurves noise isBand states surveys n saveCols mask offset r).map fun q => (laterResult Δ q.1, q.2) := by
  unfold simulateLightcurves
  rw [List.length_map, List.length_map, t0Of_later, windows_later]
  split
  · rfl
  split
  · rfl
  split
  · rfl
  cases getTimeWindows (t0Of states) offset with
  | error e => rfl
  | ok w =>
    obtain ⟨tmin, tmax⟩ := w
    dsimp only [Except.map, laterWin]
    rw [prepareAll_later move states tmin tmax surveys ht]
    cases hp : surveys.mapM (prepare states tmin tmax) with
    | error e => rfl
    | ok ps =>
      dsimp only [Except.map]
      have hin := prepareAll_survey states tmin tmax hp
      have ho := simulateObjects_later (Δ := Δ) (move := move) (mask := mask) noise (fun p hp => hs p.survey (hin p hp)) states 0 (emptyNested saveCols) r hm
        fun s h p hp => he s h p.survey (hin p hp)
      rw [emptyNested_later] at ho
      rw [ho]
      cases simulateObjects noise mask saveCols ps 0 states (emptyNested saveCols) r with
      | error e => rfl
      | ok q =>
        obtain ⟨nd, ns, r'⟩ := q
        dsimp only [Except.map]
        rw [checkNested_later]
        cases checkNested nd with
        | error e => rfl
        | ok nd =>
          simp [Except.map, laterResult, laterState, Function.comp_def]

end LCL.TranslateLemmas
