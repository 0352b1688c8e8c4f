import Verif.Lemmas.Lclib

/-!
# Property C45: the LCLIB reader
-/

namespace LCL.LclibProps
open LCL LCL.LcSpec LCL.LcLemmas

variable {F : Type} {parse : Name → Option F}

theorem each_nil_left {α β : Type} {rel : α → β → Prop} {m : List β} (h : Each rel [] m) : m = [] := by
  have := h.1; simp at this; exact List.length_eq_zero_iff.1 this.symm

theorem each_cons {α β : Type} {rel : α → β → Prop} {a : α} {l : List α} {m : List β} (h : Each rel (a :: l) m) :
    ∃ b m', m = b :: m' ∧ rel a b ∧ Each rel l m' := by
  cases m with
  | nil => have := h.1; simp at this
  | cons b m =>
    refine ⟨b, m, rfl, h.2 0 a b rfl rfl, by have := h.1; simpa using this, ?_⟩
    intro i x y hx hy
    exact h.2 (i + 1) x y (by simpa using hx) (by simpa using hy)

/-- The rows among the items. -/
def itemRows (items : List (Item F)) : List (Name × List F) := items.filterMap fun | .row t v => some (t, v) | _ => none

theorem stmt_row {k v : Name} (h : k = "S".toList ∨ k = "T".toList) (s : LcState F) : lcStmt parse k v s = lcRow parse k v s := by
  rcases h with rfl | rfl <;> rfl

theorem row_spec {names : List Name} (hn : names.Nodup) {rows : List (Name × List F)} {k v : Name} {ws : List Name} {xs : List F}
    {s : LcState F} (hc : s.colnames = names) (h : Cols names rows s) (hw : Words v ws) (hp : ws.map parse = xs.map some)
    (hl : xs.length = names.length) :
    ∃ d, lcRow parse k v s = .ok { s with types := some (rows.map (·.1) ++ [k]), cols := d } ∧
      Cols names (rows ++ [(k, xs)]) { s with types := some (rows.map (·.1) ++ [k]), cols := d } := by
  obtain ⟨h1, h2, h3⟩ := h
  have hwl : ws.length = xs.length := by have := congrArg List.length hp; simpa using this
  obtain ⟨d, a1, a2, a3, a4⟩ := append_spec (d := s.cols) hn hp hl (by rw [h2]; exact fun c hc => hc)
  refine ⟨d, ?_, ?_, ?_, ?_⟩
  · unfold lcRow
    rw [h1]
    dsimp only
    rw [splitWords_words hw, if_neg (by rw [hwl, hl, hc]; exact fun h => h rfl), hc, a1]
  · simp
  · show d.keys = names
    rw [a2, h2]
  · intro j name hj
    obtain ⟨col, c1, c2⟩ := h3 j name hj
    have := a4 j name col hj c1
    cases hg : d.get? name with
    | none => rw [hg] at this; simp at this
    | some col' =>
      rw [hg] at this
      simp only [Option.map_some, Option.some.injEq] at this
      exact ⟨col', rfl, by rw [this, c2]; simp⟩

theorem run_items {filters : List Char} {names : List Name} (hf : filters.Nodup) (hnd : names.Nodup) {items : List (Item F)} {stmts : List (Name × Name)}
    (h : Each (Item.saidBy parse (filters.length + 1) names.length) items stmts) {given : List (Name × LcMeta)} {curves : List (LcTable F)}
    {s : LcState F} {rows : List (Name × List F)} (hg : Good filters names given curves s) (hc : Cols (columnNames filters) rows s) :
    ∃ s', run parse stmts s = .ok s' ∧ Good filters names (given ++ items.flatMap (Item.gives names)) curves s' ∧
      Cols (columnNames filters) (rows ++ itemRows items) s' := by
  induction items generalizing stmts given s rows with
  | nil =>
    rw [each_nil_left h]
    exact ⟨s, rfl, by simpa using hg, by simpa [itemRows] using hc⟩
  | cons it items ih =>
    obtain ⟨⟨k, v⟩, stmts, rfl, h1, h2⟩ := each_cons h
    have step : ∃ s1, lcStmt parse k v s = .ok s1 ∧ Good filters names (given ++ it.gives names) curves s1 ∧
        Cols (columnNames filters) (rows ++ itemRows [it]) s1 := by
      cases it with
      | row typ vals =>
        obtain ⟨rfl, hk, hl, ws, hw, hp⟩ := h1
        obtain ⟨d, e1, e2⟩ := row_spec (k := k) (columnNames_nodup hf) hg.cols hc hw hp (by rw [hl]; simp [columnNames])
        refine ⟨_, by rw [stmt_row hk]; exact e1, ?_, e2⟩
        have : given ++ Item.gives names (.row k vals) = given := by simp [Item.gives]
        rw [this]
        exact ⟨hg.cols, hg.pars, hg.curves, hg.doc, hg.info, Or.inr e2.2.1⟩
      | params vals =>
        obtain ⟨rfl, hl, hv⟩ := h1
        have hp : lcParvals v = vals := by
          rcases hv with ⟨a, b⟩ | ⟨a, b⟩
          · exact parvals_commas a b
          · exact parvals_words a b
        refine ⟨{ s with info := s.info.set "PARVAL".toList (.params (names.zip vals)) }, ?_,
          ⟨hg.cols, hg.pars, hg.curves, hg.doc, info_set hg.info _ _, hg.keys⟩, ?_⟩
        · show lcParval v s = _
          unfold lcParval
          rw [hp, hg.pars, if_neg (by rw [hl]; exact fun h => h rfl), parDict_eq hnd]
        · have : rows ++ itemRows [Item.params vals] = rows := by simp [itemRows]
          rw [this]; exact hc
      | info key value =>
        obtain ⟨rfl, rfl, hk⟩ := h1
        refine ⟨{ s with info := s.info.set k (.str v) }, stmt_plain hk s,
          ⟨hg.cols, hg.pars, hg.curves, hg.doc, info_set hg.info _ _, hg.keys⟩, ?_⟩
        have : rows ++ itemRows [Item.info k v] = rows := by simp [itemRows]
        rw [this]; exact hc
    obtain ⟨s1, e1, g1, c1⟩ := step
    obtain ⟨s', e2, g2, c2⟩ := ih h2 g1 c1
    refine ⟨s', ?_, by simpa [List.append_assoc] using g2, ?_⟩
    · simp only [run, e1]; exact e2
    · have : itemRows (it :: items) = itemRows [it] ++ itemRows items := by
        unfold itemRows; rw [← List.filterMap_append]; rfl
      rw [this, ← List.append_assoc]; exact c2

theorem lastValue_append (k : Name) (a b : List (Name × LcMeta)) : lastValue k (a ++ b) = (lastValue k b).or (lastValue k a) := by
  unfold lastValue
  rw [List.filter_append, List.getLast?_append]
  cases ((b.filter fun q => decide (q.1 = k)).getLast?) <;> simp

theorem lastValue_none {k : Name} {l : List (Name × LcMeta)} (h : ∀ q ∈ l, q.1 ≠ k) : lastValue k l = none := by
  unfold lastValue
  rw [List.filter_eq_nil_iff.2 (by intro q hq; simpa using h q hq)]
  rfl

theorem gives_no_id {names : List Name} {n m : Nat} {items : List (Item F)} {stmts : List (Name × Name)}
    (h : Each (Item.saidBy parse n m) items stmts) : lastValue "id".toList (items.flatMap (Item.gives names)) = none := by
  apply lastValue_none
  intro q hq
  rw [List.mem_flatMap] at hq
  obtain ⟨it, hit, hq⟩ := hq
  obtain ⟨i, hi⟩ := List.getElem?_of_mem hit
  have hlt : i < stmts.length := by rw [← h.1]; exact (List.getElem?_eq_some_iff.1 hi).1
  have hs := h.2 i it stmts[i] hi (List.getElem?_eq_getElem hlt)
  cases it with
  | row => simp [Item.gives] at hq
  | params vals => simp only [Item.gives, List.mem_singleton] at hq; subst hq; show "PARVAL".toList ≠ "id".toList; decide
  | info key value =>
    simp only [Item.gives, List.mem_singleton] at hq
    subst hq
    intro e
    apply hs.2.2
    show key ∈ reserved
    have : key = "id".toList := e
    rw [this]
    decide

/-- Up to the end of an event. -/
theorem run_event_open {filters : List Char} {names : List Name} (hf : filters.Nodup) (hnd : names.Nodup) {before : List (Name × Name)} (hb : Plain before)
    (id : Name) {items : List (Item F)} {stmts : List (Name × Name)}
    (h : Each (Item.saidBy parse (filters.length + 1) names.length) items stmts) {given : List (Name × LcMeta)} {curves : List (LcTable F)}
    {s : LcState F} (hg : Good filters names given curves s) :
    ∃ s', run parse (before ++ ("START_EVENT".toList, id) :: stmts) s = .ok s' ∧
      Good filters names (given ++ Event.gives names ⟨before, id, items⟩) curves s' ∧ Cols (columnNames filters) (itemRows items) s' := by
  obtain ⟨s1, e1, g1, _, c1⟩ := run_plain (parse := parse) hb hg
  have hstart : lcStmt parse "START_EVENT".toList id s1 = .ok { s1 with types := some [], cols := lcReset (columnNames filters) s1.cols, info := s1.info.set "id".toList (.str id) } := by
    show lcStart id s1 = _
    unfold lcStart
    rw [g1.cols, if_neg (by simp [columnNames])]
  obtain ⟨s', e2, g2, c2⟩ := run_items (parse := parse) hf hnd h (rows := [])
    (s := { s1 with types := some [], cols := lcReset (columnNames filters) s1.cols, info := s1.info.set "id".toList (.str id) })
    (given := given ++ before.map (fun q => (q.1, LcMeta.str q.2)) ++ [("id".toList, .str id)]) (curves := curves)
    ⟨g1.cols, g1.pars, g1.curves, g1.doc, info_set g1.info _ _, Or.inr (reset_keys (columnNames_nodup hf) _ g1.keys)⟩
    ⟨rfl, reset_keys (columnNames_nodup hf) _ g1.keys, fun j name hj => ⟨[], by
      show (lcReset (columnNames filters) s1.cols).get? name = _
      rw [reset_spec, if_pos (List.mem_of_getElem? hj)], rfl⟩⟩
  refine ⟨s', ?_, ?_, by simpa using c2⟩
  · rw [run_append, e1]
    simp only [run, hstart]
    exact e2
  · have : given ++ Event.gives names ⟨before, id, items⟩ =
      given ++ before.map (fun q => (q.1, LcMeta.str q.2)) ++ [("id".toList, .str id)] ++ items.flatMap (Item.gives names) := by
        simp [Event.gives]
    rw [this]; exact g2

theorem cols_lengths {filters : List Char} (hf : filters.Nodup) {rows : List (Name × List F)} {s : LcState F}
    (h : Cols (columnNames filters) rows s) : (s.cols.all fun c => decide (c.2.length = (s.types.getD []).length)) = true := by
  rw [List.all_eq_true]
  intro c hc
  rw [decide_eq_true_eq]
  obtain ⟨h1, h2, h3⟩ := h
  have hk : c.1 ∈ columnNames filters := by rw [← h2]; exact List.mem_map.2 ⟨c, hc, rfl⟩
  obtain ⟨j, hj⟩ := List.getElem?_of_mem hk
  obtain ⟨col, d1, d2⟩ := h3 j c.1 hj
  have := Dict.get?_of_mem (by rw [h2]; exact columnNames_nodup hf) (k := c.1) (v := c.2) hc
  rw [this] at d1
  injection d1 with d1
  rw [d1, h1]
  have := congrArg List.length d2
  simpa using this

theorem run_event {filters : List Char} {names : List Name} (hf : filters.Nodup) (hnd : names.Nodup) {e : Event F} (hb : Plain e.before)
    {stmts : List (Name × Name)}
    (h : Each (Item.saidBy parse (filters.length + 1) names.length) e.items stmts) {given : List (Name × LcMeta)} {curves : List (LcTable F)}
    {s : LcState F} (hg : Good filters names given curves s) :
    ∃ s' t, run parse (e.before ++ ("START_EVENT".toList, e.id) :: (stmts ++ [("END_EVENT".toList, e.id)])) s = .ok s' ∧
      Good filters names (given ++ e.gives names) (curves ++ [t]) s' ∧ Holds filters e t ∧
      ∀ k, t.info.get? k = lastValue k (given ++ e.gives names) := by
  obtain ⟨s1, e1, g1, c1⟩ := run_event_open (parse := parse) hf hnd hb e.id h hg
  have hid : s1.info.get? "id".toList = some (.str e.id) := by
    rw [g1.info, lastValue_append]
    have : lastValue "id".toList (Event.gives names ⟨e.before, e.id, e.items⟩) = some (.str e.id) := by
      unfold Event.gives
      have hx := gives_no_id (names := names) h
      rw [show (e.before.map (fun q => (q.1, LcMeta.str q.2)) ++ ("id".toList, LcMeta.str e.id) :: e.items.flatMap (Item.gives names)) =
        (e.before.map (fun q => (q.1, LcMeta.str q.2)) ++ [("id".toList, LcMeta.str e.id)]) ++ e.items.flatMap (Item.gives names) by simp]
      rw [lastValue_append, hx, lastValue_append_self]; rfl
    rw [this]; rfl
  have hend : lcStmt parse "END_EVENT".toList e.id s1 = .ok { s1 with curves := s1.curves ++ [⟨s1.types, s1.cols, s1.info⟩] } := by
    show lcEnd e.id s1 = _
    unfold lcEnd
    rw [hid, if_neg (by simp), if_pos (cols_lengths hf c1)]
  refine ⟨{ s1 with curves := s1.curves ++ [⟨s1.types, s1.cols, s1.info⟩] }, ⟨s1.types, s1.cols, s1.info⟩, ?_, ?_, ?_, ?_⟩
  · have : e.before ++ ("START_EVENT".toList, e.id) :: (stmts ++ [("END_EVENT".toList, e.id)]) =
      (e.before ++ ("START_EVENT".toList, e.id) :: stmts) ++ [("END_EVENT".toList, e.id)] := by simp
    rw [this, run_append, e1]
    simp only [run, hend]
  · exact ⟨g1.cols, g1.pars, by rw [g1.curves], g1.doc, g1.info, g1.keys⟩
  · obtain ⟨h1, h2, h3⟩ := c1
    refine ⟨h1, fun name => by rw [h2], ?_⟩
    intro j name hj
    obtain ⟨col, d1, d2⟩ := h3 j name hj
    refine ⟨col, d1, by have := congrArg List.length d2; rw [List.length_map, List.length_map] at this; exact this, ?_⟩
    intro i r hr
    have := congrArg (fun l => l[i]?) d2
    simp only [List.getElem?_map] at this
    have hr' : (itemRows e.items)[i]? = some r := hr
    rw [hr'] at this
    cases hx : col[i]? with
    | none => rw [hx] at this; simp at this
    | some y => rw [hx] at this; simp only [Option.map_some, Option.some.injEq] at this; exact this
  · exact g1.info

theorem run_events {filters : List Char} {names : List Name} (hf : filters.Nodup) (hnd : names.Nodup) {es : List (Event F)}
    {stmts : List (Name × Name)} (h : SaysEvents parse (filters.length + 1) names.length es stmts) {given : List (Name × LcMeta)}
    {curves : List (LcTable F)} {s : LcState F} (hg : Good filters names given curves s) :
    ∃ s' ts, run parse stmts s = .ok s' ∧ Good filters names (given ++ es.flatMap (Event.gives names)) (curves ++ ts) s' ∧
      ts.length = es.length ∧ ∀ (i : Nat) e, es[i]? = some e → ∃ t, ts[i]? = some t ∧ Holds filters e t ∧
        ∀ k, t.info.get? k = lastValue k (given ++ (es.take (i + 1)).flatMap (Event.gives names)) := by
  induction h generalizing given curves s with
  | nil => exact ⟨s, [], rfl, by simpa using hg, rfl, by intro i e h; simp at h⟩
  | @cons e es items stmts hb hi _ ih =>
    obtain ⟨s1, t, e1, g1, h1, m1⟩ := run_event (parse := parse) hf hnd hb hi hg
    obtain ⟨s', ts, e2, g2, l2, h2⟩ := ih g1
    refine ⟨s', t :: ts, ?_, by simpa [List.append_assoc] using g2, by simp [l2], ?_⟩
    · have : e.before ++ ("START_EVENT".toList, e.id) :: (items ++ ("END_EVENT".toList, e.id) :: stmts) =
        (e.before ++ ("START_EVENT".toList, e.id) :: (items ++ [("END_EVENT".toList, e.id)])) ++ stmts := by simp
      rw [this, run_append, e1]
      exact e2
    · intro i x hx
      cases i with
      | zero =>
        simp only [List.getElem?_cons_zero, Option.some.injEq] at hx
        subst hx
        exact ⟨t, rfl, h1, by simpa using m1⟩
      | succ i =>
        obtain ⟨t', a, b, c⟩ := h2 i x (by simpa using hx)
        exact ⟨t', by simpa using a, b, by simpa [List.append_assoc] using c⟩

/-- What is known while the header is read. -/
structure HGood (h : List HItem) (s : LcState F) : Prop where
  cols : s.colnames = (match filtersOf h with | none => [] | some f => columnNames f)
  pars : s.parnames = parnamesOf h
  curves : s.curves = []
  doc : s.doc = false
  info : ∀ k, s.info.get? k = lastValue k (headerGives h)
  keys : s.cols = []

theorem run_header {done rest : List HItem} {stmts : List (Name × Name)} (h : Each HItem.saidBy rest stmts) {s : LcState F}
    (hg : HGood done s) : ∃ s', run parse stmts s = .ok s' ∧ HGood (done ++ rest) s' := by
  induction rest generalizing done stmts s with
  | nil => rw [each_nil_left h]; exact ⟨s, rfl, by simpa using hg⟩
  | cons it rest ih =>
    obtain ⟨⟨k, v⟩, stmts, rfl, h1, h2⟩ := each_cons h
    have step : ∃ s1, lcStmt parse k v s = .ok s1 ∧ HGood (done ++ [it]) s1 := by
      cases it with
      | filters f =>
        obtain ⟨rfl, rfl⟩ := h1
        refine ⟨{ s with colnames := columnNames v }, rfl, ?_⟩
        exact ⟨by simp [filtersOf], by rw [show parnamesOf (done ++ [HItem.filters v]) = parnamesOf done by simp [parnamesOf]]; exact hg.pars,
          hg.curves, hg.doc, by rw [show headerGives (done ++ [HItem.filters v]) = headerGives done by simp [headerGives]]; exact hg.info, hg.keys⟩
      | parnames ns =>
        obtain ⟨hk, hc⟩ := h1
        have hs : lcStmt parse k v s = .ok { s with parnames := ns } := by
          rw [← splitChar_commas hc]
          rcases hk with rfl | rfl <;> rfl
        refine ⟨_, hs, ?_⟩
        exact ⟨by rw [show filtersOf (done ++ [HItem.parnames ns]) = filtersOf done by simp [filtersOf]]; exact hg.cols, by simp [parnamesOf],
          hg.curves, hg.doc, by rw [show headerGives (done ++ [HItem.parnames ns]) = headerGives done by simp [headerGives]]; exact hg.info, hg.keys⟩
      | info key value =>
        obtain ⟨rfl, rfl, hk⟩ := h1
        refine ⟨_, stmt_plain hk s, ?_⟩
        exact ⟨by rw [show filtersOf (done ++ [HItem.info k v]) = filtersOf done by simp [filtersOf]]; exact hg.cols,
          by rw [show parnamesOf (done ++ [HItem.info k v]) = parnamesOf done by simp [parnamesOf]]; exact hg.pars,
          hg.curves, hg.doc, by rw [show headerGives (done ++ [HItem.info k v]) = headerGives done ++ [(k, .str v)] by simp [headerGives]]; exact info_set hg.info _ _, hg.keys⟩
    obtain ⟨s1, e1, g1⟩ := step
    obtain ⟨s', e2, g2⟩ := ih h2 g1
    exact ⟨s', by simp only [run, e1]; exact e2, by simpa using g2⟩

theorem init_good : HGood [] (LcState.init (F := F)) := ⟨rfl, rfl, rfl, rfl, fun _ => rfl, rfl⟩

theorem header_good {h : List HItem} {filters : List Char} (hf : filtersOf h = some filters) {s : LcState F} (hg : HGood h s) :
    Good filters (parnamesOf h) (headerGives h) [] s :=
  ⟨by rw [hg.cols, hf], hg.pars, hg.curves, hg.doc, hg.info, Or.inl (by rw [hg.keys]; rfl)⟩

/-- C45. Reading a file that says what an LCLIB file can say gives one table per event, in order. Each holds exactly
the rows of its event, and each entry of its metadata is the value given last before the end of the event; so every
entry given for the event itself has the value given there. What is missing from the full property: an entry not given
for an event but for an earlier one is in its metadata, too (`C45_carry_over_counterexample`). -/
theorem C45_reads_partial {f : File F} {filters : List Char} {stmts : List (Name × Name)} {lines : List (List Char)}
    (h : SaysFile parse f filters stmts) (hr : Reads lines stmts) :
    ∃ tables, lcRead parse lines = .ok tables ∧ tables.length = f.events.length ∧
      ∀ (i : Nat) e, f.events[i]? = some e → ∃ t, tables[i]? = some t ∧ Holds filters e t ∧
        (∀ k, t.info.get? k = lastValue k (headerGives f.header ++ (f.events.take (i + 1)).flatMap (Event.gives (parnamesOf f.header)))) ∧
        (∀ k v, lastValue k (e.gives (parnamesOf f.header)) = some v → t.info.get? k = some v) := by
  obtain ⟨hs, es, rfl, h1, h2, h3, h4, h5, h6⟩ := h
  obtain ⟨s1, e1, g1⟩ := run_header (parse := parse) h1 (init_good (F := F))
  have g1 := header_good h2 (by simpa using g1)
  obtain ⟨s2, ts, e2, g2, l2, r2⟩ := run_events (parse := parse) h3 h4 h5 g1
  obtain ⟨s3, e3, g3, _⟩ := run_plain (parse := parse) h6 g2
  have hrun : run parse (hs ++ es ++ f.after) .init = .ok s3 := by
    rw [run_append, run_append, e1]
    dsimp only
    rw [e2]
    exact e3
  have hlines : lcLines parse lines .init = .ok s3 := by
    have := reads_run (parse := parse) hr .init rfl []
    rw [List.append_nil, hrun] at this
    exact this
  refine ⟨ts, ?_, l2, ?_⟩
  · unfold lcRead
    rw [hlines]
    show Except.ok s3.curves = _
    rw [g3.curves]; rfl
  · intro i e hi
    obtain ⟨t, a, b, c⟩ := r2 i e hi
    refine ⟨t, a, b, c, ?_⟩
    intro k v hk
    rw [c, lastValue_append, List.take_add_one, hi, List.flatMap_append, lastValue_append]
    simp [hk]

/-- What makes a statement within an event malformed: an end with another name, a row with the wrong number of
entries or with an entry that is not a number, or the wrong number of parameter values. -/
inductive Bad (parse : Name → Option F) (n m : Nat) (id : Name) : Name → Name → Prop
  | end_ {v : Name} : v ≠ id → Bad parse n m id "END_EVENT".toList v
  | count {k v : Name} {ws : List Name} : k = "S".toList ∨ k = "T".toList → Words v ws → ws.length ≠ n → Bad parse n m id k v
  | number {k v : Name} {ws : List Name} {w : Name} : k = "S".toList ∨ k = "T".toList → Words v ws → w ∈ ws → parse w = none → Bad parse n m id k v
  | params {v : Name} {ps : List Name} : (Commas v ps ∧ 2 ≤ ps.length) ∨ (',' ∉ v ∧ Words v ps) → ps.length ≠ m → Bad parse n m id "PARVAL".toList v

theorem append_bad {cs vs : List Name} {d : Dict Name (List F)} (hc : ∀ c ∈ cs, c ∈ d.keys) (hl : vs.length = cs.length)
    {w : Name} (hw : w ∈ vs) (hp : parse w = none) : lcAppend parse cs vs d = .error .valueError := by
  induction cs generalizing vs d with
  | nil => have := List.length_eq_zero_iff.1 hl; subst this; cases hw
  | cons c cs ih =>
    cases vs with
    | nil => simp at hl
    | cons v vs =>
      simp only [lcAppend]
      cases hg : d.get? c with
      | none => exact absurd (hc c (by simp)) ((Dict.get?_eq_none_iff d c).1 hg)
      | some l =>
        cases hv : parse v with
        | none => rfl
        | some x =>
          dsimp only
          have hk : (d.set c (l ++ [x])).keys = d.keys := by rw [Dict.keys_set, if_pos (hc c (by simp))]
          refine ih (fun y hy => by rw [hk]; exact hc y (List.mem_cons_of_mem _ hy)) (by simpa using hl) ?_
          rcases List.mem_cons.1 hw with h | h
          · subst h; rw [hp] at hv; cases hv
          · exact h

/-- C45: a malformed event raises ValueError, whatever comes before (a header and events as they should be) and after
it; and an event in a file whose header names no filters raises ValueError. -/
theorem C45_malformed {h : List HItem} {filters : List Char} {es : List (Event F)} {hs ess : List (Name × Name)}
    (h1 : Each HItem.saidBy h hs) :
    (∀ {before : List (Name × Name)} {id : Name} {items : List (Item F)} {stmts : List (Name × Name)} {k v : Name} {lines : List (List Char)} (rest : List (List Char)),
      filtersOf h = some filters → filters.Nodup → (parnamesOf h).Nodup →
      SaysEvents parse (filters.length + 1) (parnamesOf h).length es ess → Plain before →
      Each (Item.saidBy parse (filters.length + 1) (parnamesOf h).length) items stmts →
      Bad parse (filters.length + 1) (parnamesOf h).length id k v →
      Reads lines (hs ++ ess ++ (before ++ ("START_EVENT".toList, id) :: stmts) ++ [(k, v)]) →
      lcRead parse (lines ++ rest) = .error .valueError) ∧
    (∀ {id : Name} {lines : List (List Char)} (rest : List (List Char)), filtersOf h = none →
      Reads lines (hs ++ [("START_EVENT".toList, id)]) → lcRead parse (lines ++ rest) = .error .valueError) := by
  obtain ⟨s1, e1, g1⟩ := run_header (parse := parse) h1 (init_good (F := F))
  constructor
  · intro before id items stmts k v lines rest h2 h3 h4 h5 h6 h7 hb hr
    have g1 := header_good h2 (by simpa using g1)
    obtain ⟨s2, ts, e2, g2, _, _⟩ := run_events (parse := parse) h3 h4 h5 g1
    obtain ⟨s3, e3, g3, c3⟩ := run_event_open (parse := parse) h3 h4 h6 id h7 g2
    have hid : s3.info.get? "id".toList = some (.str id) := by
      rw [g3.info, lastValue_append]
      have : lastValue "id".toList (Event.gives (parnamesOf h) ⟨before, id, items⟩) = some (.str id) := by
        unfold Event.gives
        have hx := gives_no_id (names := parnamesOf h) h7
        rw [show (before.map (fun q => (q.1, LcMeta.str q.2)) ++ ("id".toList, LcMeta.str id) :: items.flatMap (Item.gives (parnamesOf h))) =
          (before.map (fun q => (q.1, LcMeta.str q.2)) ++ [("id".toList, LcMeta.str id)]) ++ items.flatMap (Item.gives (parnamesOf h)) by simp]
        rw [lastValue_append, hx, lastValue_append_self]; rfl
      rw [this]; rfl
    have hk : ∀ c ∈ columnNames filters, c ∈ s3.cols.keys := by rw [c3.2.1]; exact fun c h => h
    have hbad : lcStmt parse k v s3 = .error .valueError := by
      cases hb with
      | end_ hv =>
        show lcEnd v s3 = _
        unfold lcEnd
        rw [hid, if_pos]
        intro e
        simp only [Option.getD_some, LcMeta.str.injEq] at e
        exact hv e.symm
      | count hk hw hn =>
        rw [stmt_row hk]
        unfold lcRow
        rw [c3.1]
        dsimp only
        rw [splitWords_words hw, g3.cols, if_pos (by simpa [columnNames] using hn)]
      | @number k v ws w hk' hw hm hp =>
        rw [stmt_row hk']
        unfold lcRow
        rw [c3.1]
        dsimp only
        rw [splitWords_words hw, g3.cols]
        by_cases hl : ws.length = (columnNames filters).length
        · rw [if_neg (by rw [hl]; exact fun h => h rfl), append_bad hk hl hm hp]
        · rw [if_pos hl]
      | @params v ps hv hn =>
        have hp : lcParvals v = ps := by
          rcases hv with ⟨a, b⟩ | ⟨a, b⟩
          · exact parvals_commas a b
          · exact parvals_words a b
        show lcParval v s3 = _
        unfold lcParval
        rw [hp, g3.pars, if_pos hn]
    have := reads_run (parse := parse) hr .init rfl rest
    rw [run_append, run_append, run_append, e1] at this
    dsimp only at this
    rw [e2] at this
    dsimp only at this
    rw [e3] at this
    dsimp only at this
    simp only [run, hbad] at this
    unfold lcRead
    rw [this]
  · intro id lines rest h2 hr
    have hstart : lcStmt parse "START_EVENT".toList id s1 = .error .valueError := by
      show lcStart id s1 = _
      unfold lcStart
      have : s1.colnames = [] := by rw [g1.cols, List.nil_append, h2]
      rw [this]; rfl
    have := reads_run (parse := parse) hr .init rfl rest
    rw [run_append, e1] at this
    dsimp only at this
    simp only [run, hstart] at this
    unfold lcRead
    rw [this]

/-- C45: which files are read. A file is read as text or as compressed text depending on the end of its name, in upper
or lower case; another name raises ValueError, a missing file FileNotFoundError. -/
theorem C45_file (fs : Dict Name LcFile) (path : Name) (lines : List (List Char)) :
    (fs.get? path = none → lcReadFile parse fs path = .error .fileNotFound) ∧
    (∀ sfx ∈ [".dat".toList, ".txt".toList, ".text".toList], (pathSuffix path).map Char.toLower = sfx → fs.get? path = some (.plain lines) →
      lcReadFile parse fs path = lcRead parse lines) ∧
    (∀ sfx ∈ [".gz".toList, ".gzip".toList], (pathSuffix path).map Char.toLower = sfx → fs.get? path = some (.gz lines) →
      lcReadFile parse fs path = lcRead parse lines) ∧
    ((pathSuffix path).map Char.toLower ∉ [".dat".toList, ".txt".toList, ".text".toList, ".gz".toList, ".gzip".toList] → fs.get? path ≠ none →
      lcReadFile parse fs path = .error .valueError) := by
  refine ⟨?_, ?_, ?_, ?_⟩
  · intro h; unfold lcReadFile; rw [h]
  · intro sfx hs he h
    unfold lcReadFile
    rw [h, he]
    dsimp only
    rw [if_neg, if_pos hs]
    intro h2
    simp only [List.mem_cons, List.not_mem_nil, or_false] at hs h2
    rcases hs with rfl | rfl | rfl <;> rcases h2 with h2 | h2 <;> exact absurd h2 (by decide)
  · intro sfx hs he h
    unfold lcReadFile
    rw [h, he]
    dsimp only
    rw [if_pos hs]
  · intro h hn
    simp only [List.mem_cons, List.not_mem_nil, or_false, not_or] at h
    unfold lcReadFile
    cases hf : fs.get? path with
    | none => exact absurd hf hn
    | some f =>
      dsimp only
      rw [if_neg (by simp only [List.mem_cons, List.not_mem_nil, or_false, not_or]; exact ⟨h.2.2.2.1, h.2.2.2.2⟩),
        if_neg (by simp only [List.mem_cons, List.not_mem_nil, or_false, not_or]; exact ⟨h.1, h.2.1, h.2.2.1⟩)]

/-! ### Examples -/

example : (pathSuffix "/data/LCLIB.DAT".toList).map Char.toLower = ".dat".toList := rfl

/-- Numbers of one digit. -/
def digit : Name → Option Nat
  | [c] => if c.isDigit then some (c.toNat - 48) else none
  | _ => none

/-- A file with two events; the second does not say what its recurrence class is. -/
def sample : List (List Char) := ["DOCUMENTATION:".toList, " PURPOSE: test # FILTERS: none".toList, "DOCUMENTATION_END:".toList,
  "FILTERS: gr # the filters".toList, "----".toList, "START_EVENT: 1".toList, "RECUR_CLASS: NONE".toList, "T: 0 1 2".toList,
  "S: 3  4 5".toList, "END_EVENT: 1".toList, "START_EVENT: 2".toList, "S: 6 7 8".toList, "END_EVENT: 2".toList]

/-- C45 fails for the metadata: the second table has an entry that was given for the first event only. -/
theorem C45_carry_over_counterexample : ∃ t1 t2, lcRead digit sample = .ok [t1, t2] ∧
    t1.types = some ["T".toList, "S".toList] ∧ t1.cols = [("time".toList, [0, 3]), (['g'], [1, 4]), (['r'], [2, 5])] ∧
    t2.types = some ["S".toList] ∧ t2.cols = [("time".toList, [6]), (['g'], [7]), (['r'], [8])] ∧
    t2.info.get? "id".toList = some (.str "2".toList) ∧ t2.info.get? "RECUR_CLASS".toList = some (.str "NONE".toList) :=
  ⟨_, _, rfl, rfl, rfl, rfl, rfl, rfl, rfl⟩

/-- C45 fails for malformed files: an event that does not end is dropped without an error, one that ends twice is
returned twice, and rows between events are dropped. -/
theorem C45_malformed_counterexample :
    lcRead digit ["FILTERS: g".toList, "START_EVENT: 1".toList, "S: 0 1".toList] = .ok [] ∧
    (∃ t, lcRead digit ["FILTERS: g".toList, "START_EVENT: 1".toList, "S: 0 1".toList, "END_EVENT: 1".toList, "END_EVENT: 1".toList] = .ok [t, t]) ∧
    (∃ t1 t2, lcRead digit ["FILTERS: g".toList, "START_EVENT: 1".toList, "S: 0 1".toList, "END_EVENT: 1".toList, "S: 5 5".toList,
      "START_EVENT: 2".toList, "END_EVENT: 2".toList] = .ok [t1, t2] ∧ t1.types = some ["S".toList] ∧ t2.types = some []) :=
  ⟨rfl, ⟨_, rfl⟩, ⟨_, _, rfl, rfl, rfl⟩⟩

example : Says " FILTERS:  gr # the filters".toList "FILTERS".toList "gr".toList :=
  ⟨" ".toList, "  ".toList, " ".toList, "# the filters".toList, rfl, (by unfold Blank; decide), (by unfold Blank; decide), (by unfold Blank; decide), Or.inr rfl, by decide, by decide, by decide, by decide,
    by decide, by decide⟩

example : Silent "---- # note: x".toList := ⟨"---- ".toList, "# note: x".toList, rfl, Or.inr rfl, by decide, by decide⟩

/-- A file of one event satisfies the hypotheses of `C45_reads_partial`. -/
example : SaysFile digit ⟨[.filters "gr".toList, .parnames ["a".toList, "b".toList], .info "SURVEY".toList "LSST".toList],
      [⟨[("NOTE".toList, "x".toList)], "1".toList, [.params ["2".toList, "3".toList], .row "S".toList [0, 1, 2]]⟩], []⟩ "gr".toList
    [("FILTERS".toList, "gr".toList), ("MODEL_PARNAMES".toList, "a,b".toList), ("SURVEY".toList, "LSST".toList), ("NOTE".toList, "x".toList),
      ("START_EVENT".toList, "1".toList), ("PARVAL".toList, "2,3".toList), ("S".toList, "0 1 2".toList), ("END_EVENT".toList, "1".toList)] := by
  have two : ∀ {α β : Type} {rel : α → β → Prop} {l : List α} {m : List β}, List.Forall₂ rel l m → Each rel l m := by
    intro α β rel l m h
    refine ⟨by induction h with
      | nil => rfl
      | cons _ _ ih => simp [ih], ?_⟩
    intro i a b ha hb
    induction h generalizing i with
    | nil => simp at ha
    | cons h _ ih =>
      cases i with
      | zero => simp only [List.getElem?_cons_zero, Option.some.injEq] at ha hb; subst ha; subst hb; exact h
      | succ i => exact ih i (by simpa using ha) (by simpa using hb)
  refine ⟨[("FILTERS".toList, "gr".toList), ("MODEL_PARNAMES".toList, "a,b".toList), ("SURVEY".toList, "LSST".toList)],
    [("NOTE".toList, "x".toList), ("START_EVENT".toList, "1".toList), ("PARVAL".toList, "2,3".toList), ("S".toList, "0 1 2".toList),
      ("END_EVENT".toList, "1".toList)], rfl, ?_, rfl, by decide, by decide, ?_, ?_⟩
  · exact two (.cons ⟨rfl, rfl⟩ (.cons ⟨Or.inl rfl, rfl, by simp, by decide⟩ (.cons ⟨rfl, rfl, by decide⟩ .nil)))
  · exact .cons (e := ⟨[("NOTE".toList, "x".toList)], "1".toList, [.params ["2".toList, "3".toList], .row "S".toList [0, 1, 2]]⟩)
      (by intro q hq; simp only [List.mem_singleton] at hq; subst hq; decide)
      (two (.cons ⟨rfl, rfl, Or.inl ⟨⟨rfl, by simp, by decide⟩, by decide⟩⟩ (.cons ⟨rfl, Or.inl rfl, rfl, ["0".toList, "1".toList, "2".toList],
        .cons (w := ['0']) (sp := [' ']) (by decide) (by decide) (by decide) (by unfold Blank; decide)
          (.cons (w := ['1']) (sp := [' ']) (by decide) (by decide) (by decide) (by unfold Blank; decide) (.one (w := ['2']) (by decide) (by decide))), rfl⟩ .nil))) .nil
  · intro q hq; cases hq

/-- C45, what the reader strips and splits at: exactly the 29 characters Python calls white space. -/
theorem C45_space (c : Char) : isSpace c = true ↔ c.toNat ∈ [9, 10, 11, 12, 13, 28, 29, 30, 31, 32, 133, 160, 5760, 8192, 8193, 8194, 8195, 8196, 8197, 8198, 8199, 8200,
    8201, 8202, 8232, 8233, 8239, 8287, 12288] := by
  unfold isSpace
  simp only [Bool.or_eq_true, Bool.and_eq_true, decide_eq_true_eq, beq_iff_eq, List.mem_cons, List.not_mem_nil, or_false]
  omega

end LCL.LclibProps
