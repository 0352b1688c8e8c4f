import Verif.Props.Compute
import Verif.Spec.Samplers

/-!
# Properties C19 and C20: ordered lists and tables
-/

namespace LCL.SamplerProps
open LCL LCL.GraphSpec LCL.GraphLemmas LCL.NodeSpec LCL.NodeLemmas LCL.SamplerSpec LCL.ComputeProps
variable {α σ ρ : Type}

theorem stored_unique {n : Nat} {rows : List (Val α)} {w : Val α} (hn : n ≠ 1)
    (h : storedAs n (.arr rows) w) : w = .arr rows := by
  rcases h with ⟨h, _⟩ | ⟨_, r, h1, _, h2 | ⟨a, h2, _⟩⟩
  · exact absurd h hn
  · cases h2; exact h1
  · cases h2

/-- Saving one output of a node in a reachable state. -/
theorem save_one (nd : PNode α σ) (o : Name) (ho : nd.outputs = [o]) (hd1 : '.' ∉ nd.str) (hd2 : '.' ∉ o)
    (s : GState α) (hs : Reachable s) (v : Val α) (hv : (rowsOf s.numSamples v).length = s.numSamples)
    (harr : s.numSamples ≠ 1 → ∃ l, v = .arr l) :
    ∃ s', Heap.saveResultsS nd s v = (s', none) ∧
      (isFixed s nd.str o ∨ readParam s' nd.str o = some v) ∧
      ∀ m p, ((m, p) ≠ (nd.str, o) ∨ isFixed s m p) → readParam s' m p = readParam s m p := by
  have hw := reachable_wf hs
  have hnorm : GState.normalise s.numSamples v = .ok v := by
    unfold GState.normalise
    by_cases hn : s.numSamples = 1
    · simp [hn]
    · obtain ⟨l, rfl⟩ := harr hn
      simp only [rowsOf, hn, if_false, cells] at hv
      simp [hn, hv]
  have hdots : (hasDot nd.str || hasDot o) = false := by
    rw [(hasDot_false_iff _).2 hd1, (hasDot_false_iff _).2 hd2]; rfl
  have herr := (set_error_iff s hw nd.str o v false).2 ⟨hdots, Or.inr ⟨v, hnorm⟩⟩
  obtain ⟨hwf, _, heff⟩ := set_effect s hw nd.str o v false
  refine ⟨(s.set nd.str o v false).1, ?_, ?_, ?_⟩
  · unfold Heap.saveResultsS
    rw [ho]
    exact Prod.ext rfl herr
  · rw [read_eq_look _ hwf.toShape]
    rcases heff with ⟨hc, _⟩ | ⟨_, _, w, h1, h2, _⟩
    · rcases hc with h | h | ⟨e, h⟩
      · rw [hdots] at h; cases h
      · exact Or.inl ((isFixed_iff _ _ _).2 h)
      · rw [hnorm] at h; cases h
    · rw [hnorm] at h1; cases h1
      right; rw [h2]; simp
  · intro m p hc
    rw [read_eq_look _ hwf.toShape, read_eq_look _ hw.toShape]
    rcases heff with ⟨_, h, _⟩ | ⟨_, hf, w, _, h2, _⟩
    · exact h m p
    · rw [h2, if_neg]
      rintro ⟨rfl, rfl⟩
      rcases hc with h | h
      · exact h rfl
      · exact hf ((isFixed_iff _ _ _).1 h)

/-! ## C19 -/

/-- One call on a list whose first `g.next` values were handed out. -/
theorem list_step (nd : PNode α σ) (o : Name) (ho : nd.outputs = [o]) (hd1 : '.' ∉ nd.str) (hd2 : '.' ∉ o)
    (g : GivenList α) (s : GState α) (hs : Reachable s) :
    (∃ v s', g.compute nd s = ({ g with next := g.next + s.numSamples }, s', .ok v) ∧
      g.next + s.numSamples ≤ g.values.length ∧
      rowsOf s.numSamples v = (g.values.drop g.next).take s.numSamples ∧
      (isFixed s nd.str o ∨ readParam s' nd.str o = some v) ∧
      ∀ m p, ((m, p) ≠ (nd.str, o) ∨ isFixed s m p) → readParam s' m p = readParam s m p) ∨
    (g.values.length < g.next + s.numSamples ∧ g.compute nd s = (g, s, .error .indexError)) := by
  have hdraw : (∃ v, g.draw s.numSamples = ({ g with next := g.next + s.numSamples }, .ok v) ∧
      g.next + s.numSamples ≤ g.values.length ∧
      rowsOf s.numSamples v = (g.values.drop g.next).take s.numSamples ∧ (s.numSamples ≠ 1 → ∃ l, v = .arr l)) ∨
    (g.values.length < g.next + s.numSamples ∧ g.draw s.numSamples = (g, .error .indexError)) := by
    unfold GivenList.draw
    by_cases hn : s.numSamples = 1
    · simp only [hn, if_true]
      cases hv : g.values[g.next]? with
      | none =>
        right
        have := List.getElem?_eq_none_iff.1 hv
        exact ⟨by omega, rfl⟩
      | some v =>
        left
        obtain ⟨hlt, he⟩ := List.getElem?_eq_some_iff.1 hv
        refine ⟨v, rfl, hlt, ?_, fun h => absurd rfl h⟩
        simp only [rowsOf, if_true]
        rw [List.drop_eq_getElem_cons hlt, he]; simp
    · simp only [hn, if_false]
      by_cases hc : g.next + s.numSamples > g.values.length
      · right; exact ⟨hc, by simp only [hc, if_true]⟩
      · left; simp only [hc, if_false]
        exact ⟨_, rfl, by omega, by simp [rowsOf, hn, cells], fun _ => ⟨_, rfl⟩⟩
  unfold GivenList.compute
  rcases hdraw with ⟨v, h1, h2, h3, h4⟩ | ⟨h1, h2⟩
  · left
    rw [h1]
    obtain ⟨s', e1, e2, e3⟩ := save_one nd o ho hd1 hd2 s hs v (by rw [h3]; simp; omega) h4
    simp only [e1]
    exact ⟨v, s', rfl, h2, h3, e2, e3⟩
  · right; rw [h2]; exact ⟨h1, rfl⟩

theorem handed_snoc (evs : List (Event α)) (e : Event α) : handed (evs ++ [e]) = match e with
    | .reset => []
    | .asked n (.ok v) => handed evs ++ rowsOf n v
    | .asked _ (.error _) => handed evs := by
  unfold handed; rw [List.foldl_append]; rfl

theorem list_inv (nd : PNode α σ) (o : Name) (ho : nd.outputs = [o]) (hd1 : '.' ∉ nd.str) (hd2 : '.' ∉ o)
    (values : List (Val α)) (calls : List (Call α)) (hr : ReachableCalls calls) :
    ∀ (g : GivenList α) (evs : List (Event α)), g.values = values → handed evs = values.take g.next →
      g.next ≤ values.length →
      ∃ R, calls.foldl (listStep nd) (g, evs) = R ∧
        R.1.values = values ∧ handed R.2 = values.take R.1.next ∧ R.1.next ≤ values.length := by
  induction calls with
  | nil => intro g evs h1 h2 h3; exact ⟨_, rfl, h1, h2, h3⟩
  | cons c calls ih =>
    intro g evs h1 h2 h3
    rw [List.foldl_cons]
    have hr' : ReachableCalls calls := fun s h => hr s (List.mem_cons_of_mem _ h)
    cases c with
    | reset =>
      exact ih hr' g.reset _ h1 (by rw [handed_snoc]; simp [GivenList.reset]) (by simp [GivenList.reset])
    | compute s =>
      rcases list_step nd o ho hd1 hd2 g s (hr s (by simp)) with ⟨v, s', e, e1, e2, _⟩ | ⟨e1, e⟩
      · simp only [listStep, e]
        apply ih hr' { g with next := g.next + s.numSamples } _ h1
        · rw [handed_snoc]
          simp only
          rw [h2, e2, h1, List.take_add]
        · rw [h1] at e1; exact e1
      · simp only [listStep, e]
        exact ih hr' g _ h1 (by rw [handed_snoc]; exact h2) h3

/-- C19. After any history of `compute` and `reset` calls on a `GivenValueList`, what was handed
out since the last reset is a prefix of the list; the next `compute` either returns (and stores,
unless that parameter is fixed) exactly the next `num_samples` values of the list, changing nothing
else in the state, or fewer remain, it raises `IndexError`, and neither the sampler nor the state
has changed. -/
theorem C19_list_in_order (nd : PNode α σ) (o : Name) (ho : nd.outputs = [o]) (hd1 : '.' ∉ nd.str)
    (hd2 : '.' ∉ o) (values : List (Val α)) (g0 : GivenList α) (h0 : GivenList.init values = .ok g0)
    (calls : List (Call α)) (hr : ReachableCalls calls) (s : GState α) (hs : Reachable s) :
    handed (listRun nd g0 calls).2 <+: values ∧
    ((∃ v g' s', (listRun nd g0 calls).1.compute nd s = (g', s', .ok v) ∧
        (rowsOf s.numSamples v).length = s.numSamples ∧
        handed (listRun nd g0 calls).2 ++ rowsOf s.numSamples v <+: values ∧
        (isFixed s nd.str o ∨ readParam s' nd.str o = some v) ∧
        ∀ m p, ((m, p) ≠ (nd.str, o) ∨ isFixed s m p) → readParam s' m p = readParam s m p) ∨
     (values.length < (handed (listRun nd g0 calls).2).length + s.numSamples ∧
        (listRun nd g0 calls).1.compute nd s = ((listRun nd g0 calls).1, s, .error .indexError))) := by
  have hg : g0 = ⟨values, 0⟩ := by
    unfold GivenList.init at h0; split at h0
    · cases h0
    · cases h0; rfl
  subst hg
  obtain ⟨R, e, h1, h2, h3⟩ := list_inv nd o ho hd1 hd2 values calls hr ⟨values, 0⟩ [] rfl (by simp [handed]) (by simp)
  unfold listRun
  rw [e, h2]
  refine ⟨List.take_prefix _ _, ?_⟩
  rcases list_step nd o ho hd1 hd2 R.1 s hs with ⟨v, s', e, e1, e2, e3, e4⟩ | ⟨e1, e⟩
  · left
    refine ⟨v, _, s', e, ?_, ?_, e3, e4⟩
    · rw [e2, List.length_take, List.length_drop]; omega
    · rw [e2, h1, ← List.take_add]; exact List.take_prefix _ _
  · right
    refine ⟨?_, e⟩
    rw [h1] at e1; rw [List.length_take, Nat.min_eq_left h3]; exact e1

/-- An empty list is rejected when the sampler is built. -/
theorem C19_empty_rejected (values : List (Val α)) :
    (∃ e, GivenList.init values = .error e) ↔ values = [] := by
  unfold GivenList.init
  cases values <;> simp

/-! ## C20 -/

/-- A result that fits a state with `n` samples. -/
def Fits (n : Nat) (v : Val α) : Prop := (rowsOf n v).length = n ∧ (n ≠ 1 → ∃ l, v = .arr l)

theorem fits_normalise {n : Nat} {v : Val α} (h : Fits n v) : GState.normalise n v = .ok v := by
  unfold GState.normalise
  by_cases hn : n = 1
  · simp [hn]
  · obtain ⟨l, rfl⟩ := h.2 hn
    have := h.1
    simp only [rowsOf, hn, if_false, cells] at this
    simp [hn, this]

theorem fits_stored {n : Nat} {v w : Val α} (h : Fits n v) (hs : storedAs n v w) : w = v := by
  by_cases hn : n = 1
  · rcases hs with ⟨_, h⟩ | ⟨h, _⟩
    · exact h
    · exact absurd hn h
  · obtain ⟨l, rfl⟩ := h.2 hn
    exact stored_unique hn hs

theorem saveAllS_succeeds (nd : PNode α σ) (hd1 : '.' ∉ nd.str) : ∀ (l : List (Name × Val α)) (s : GState α),
    WF s → (∀ q ∈ l, '.' ∉ q.1 ∧ Fits s.numSamples q.2) → ∃ s', Heap.saveAllS nd s l = (s', none) := by
  intro l
  induction l with
  | nil => intro s _ _; exact ⟨s, rfl⟩
  | cons q l ih =>
    intro s hw h
    obtain ⟨h1, h2⟩ := h q (by simp)
    have hdots : (hasDot nd.str || hasDot q.1) = false := by
      rw [(hasDot_false_iff _).2 hd1, (hasDot_false_iff _).2 h1]; rfl
    have herr := (set_error_iff s hw nd.str q.1 q.2 false).2 ⟨hdots, Or.inr ⟨_, fits_normalise h2⟩⟩
    obtain ⟨hwf, hnum, _⟩ := set_effect s hw nd.str q.1 q.2 false
    obtain ⟨s', hs'⟩ := ih (s.set nd.str q.1 q.2 false).1 hwf (by
      intro x hx; rw [hnum]; exact h x (List.mem_cons_of_mem _ hx))
    refine ⟨s', ?_⟩
    have : s.set nd.str q.1 q.2 false = ((s.set nd.str q.1 q.2 false).1, none) := Prod.ext rfl herr
    unfold Heap.saveAllS
    rw [this]; exact hs'

theorem saveAllS_congr {τ : Type} (nd : PNode α σ) (nd' : PNode α τ) (h : nd'.str = nd.str) :
    ∀ (l : List (Name × Val α)) (s : GState α), Heap.saveAllS nd' s l = Heap.saveAllS nd s l := by
  intro l
  induction l with
  | nil => intro s; rfl
  | cons q l ih =>
    intro s
    unfold Heap.saveAllS
    rw [h]
    split
    · exact ih _
    · rfl

theorem saveResultsS_congr {τ : Type} (nd : PNode α σ) (nd' : PNode α τ) (h : nd'.str = nd.str)
    (ho : nd'.outputs = nd.outputs) (s : GState α) (v : Val α) :
    Heap.saveResultsS nd' s v = Heap.saveResultsS nd s v := by
  unfold Heap.saveResultsS
  rw [ho, h]
  split
  · rfl
  · split
    · split
      · rfl
      · exact saveAllS_congr nd nd' h _ _
    · rfl

/-- The node without its function (used to instantiate the world type). -/
def bare (nd : PNode α σ) : PNode α Unit :=
  { cls := nd.cls, label := nd.label, isFunc := nd.isFunc, funcName := nd.funcName, body := none,
    attrs := nd.attrs, pos := nd.pos, str := nd.str, setters := nd.setters, argNames := nd.argNames,
    outputs := nd.outputs }

/-- Saving several outputs of a node in a reachable state. -/
theorem save_many (nd : PNode α σ) (hout : nd.outputs.length ≠ 1) (hnd : nd.outputs.Nodup) (hd1 : '.' ∉ nd.str)
    (hd2 : ∀ o ∈ nd.outputs, '.' ∉ o) (s : GState α) (hs : Reachable s) (vs : List (Val α))
    (hl : vs.length = nd.outputs.length) (hv : ∀ v ∈ vs, Fits s.numSamples v) :
    ∃ s', Heap.saveResultsS nd s (.arr vs) = (s', none) ∧
      (∀ (i : Nat) o v, nd.outputs[i]? = some o → vs[i]? = some v → isFixed s nd.str o ∨ readParam s' nd.str o = some v) ∧
      ∀ m p, (m ≠ nd.str ∨ p ∉ nd.outputs ∨ isFixed s m p) → readParam s' m p = readParam s m p := by
  have hw := reachable_wf hs
  obtain ⟨s', hs'⟩ := saveAllS_succeeds nd hd1 (nd.outputs.zip vs) s hw (by
    intro q hq
    obtain ⟨h1, h2⟩ := List.of_mem_zip (a := q.1) (b := q.2) hq
    exact ⟨hd2 _ h1, hv _ h2⟩)
  have hsv : Heap.saveResultsS nd s (.arr vs) = (s', none) := by
    unfold Heap.saveResultsS
    split
    · rename_i o ho; rw [ho] at hout; simp at hout
    · simp only [hl, ne_eq, not_true_eq_false, if_false]; exact hs'
  refine ⟨s', hsv, ?_, ?_⟩
  · intro i o v ho hvi
    obtain ⟨a1, a2⟩ := saveResults_wrote (bare nd) _ _ (.arr vs) hw hnd
      (saveResultsS_ok (bare nd) () (.arr vs) s s' ((saveResultsS_congr nd (bare nd) rfl rfl s _).trans hsv))
    have hmem : o ∈ nd.outputs := List.mem_of_getElem? ho
    rcases a2 o hmem with h | ⟨u, w, h1, h2, h3⟩
    · exact Or.inl ((isFixed_iff _ _ _).2 h)
    · right
      rw [read_eq_look _ a1.wf.toShape]; refine Eq.trans h3 ?_
      rcases h1 with ⟨h1, _⟩ | ⟨_, rows, j, e1, e2, e3, e4⟩
      · rw [show nd.outputs = [o] from h1] at hout; simp at hout
      · cases e1
        have hij : i = j := by
          obtain ⟨x1, y1⟩ := List.getElem?_eq_some_iff.1 ho
          obtain ⟨x2, y2⟩ := List.getElem?_eq_some_iff.1 (show nd.outputs[j]? = some o from e3)
          exact (List.getElem_inj hnd).1 (y1.trans y2.symm)
        subst hij
        rw [hvi] at e4; cases e4
        rw [fits_stored (hv _ (List.mem_of_getElem? hvi)) h2]
  · intro m p hc
    obtain ⟨a1, a2⟩ := saveResults_wrote (bare nd) _ _ (.arr vs) hw hnd
      (saveResultsS_ok (bare nd) () (.arr vs) s s' ((saveResultsS_congr nd (bare nd) rfl rfl s _).trans hsv))
    rw [read_eq_look _ a1.wf.toShape, read_eq_look _ hw.toShape]
    apply a1.other
    rcases hc with h | h | h
    · exact Or.inl h
    · exact Or.inr (Or.inl h)
    · exact Or.inr (Or.inr ((isFixed_iff _ _ _).1 h))

theorem mapM_index (col : List (Val α)) : ∀ (inds : List Nat), (∀ i ∈ inds, i < col.length) →
    ∃ vs, inds.mapM (fun i => col[i]?) = some vs ∧ vs.length = inds.length ∧
      ∀ (k : Nat) (i : Nat), inds[k]? = some i → vs[k]? = col[i]? := by
  intro inds
  induction inds with
  | nil => intro _; exact ⟨[], rfl, rfl, by simp⟩
  | cons i inds ih =>
    intro h
    obtain ⟨vs, h1, h2, h3⟩ := ih (fun j hj => h j (List.mem_cons_of_mem _ hj))
    have hi := h i (by simp)
    refine ⟨col[i] :: vs, ?_, by simp [h2], ?_⟩
    · rw [List.mapM_cons, List.getElem?_eq_getElem hi, h1]; rfl
    · intro k j hk
      cases k with
      | zero => simp at hk; subst hk; simp [hi]
      | succ k => simp at hk; simpa using h3 k j hk

theorem column_ok (n : Nat) (hn : 1 ≤ n) (inds : List Nat) (hl : inds.length = n) (col : List (Val α))
    (hlt : ∀ i ∈ inds, i < col.length) :
    ∃ v, TableSampler.column n inds col = .ok v ∧ Fits n v ∧
      ∀ (k : Nat) (i : Nat), inds[k]? = some i → sampleAt n v k = col[i]? := by
  obtain ⟨vs, h1, h2, h3⟩ := mapM_index col inds hlt
  unfold TableSampler.column
  rw [h1]
  simp only
  by_cases h : n = 1
  · simp only [h, if_true]
    match vs, h2 with
    | [], h2 => simp at h2; omega
    | v :: vs', h2 =>
      have : vs' = [] := by
        apply List.eq_nil_of_length_eq_zero; simp at h2; omega
      subst this
      refine ⟨v, rfl, ⟨by simp [rowsOf], fun h => absurd rfl h⟩, ?_⟩
      intro k i hk
      simpa [sampleAt, rowsOf] using h3 k i hk
  · simp only [h, if_false]
    refine ⟨_, rfl, ⟨by simp [rowsOf, h, cells, h2, hl], fun _ => ⟨_, rfl⟩⟩, ?_⟩
    intro k i hk
    simpa [sampleAt, rowsOf, h, cells] using h3 k i hk

theorem mapM_ok_of_forall {β γ : Type} (f : β → Except Err γ) (P : β → γ → Prop) : ∀ (l : List β),
    (∀ x ∈ l, ∃ y, f x = .ok y ∧ P x y) →
    ∃ ys, l.mapM f = .ok ys ∧ ys.length = l.length ∧
      ∀ (i : Nat) (x : β) (y : γ), l[i]? = some x → ys[i]? = some y → P x y := by
  intro l
  induction l with
  | nil => intro _; exact ⟨[], rfl, rfl, by simp⟩
  | cons x l ih =>
    intro h
    obtain ⟨y, hy, hp⟩ := h x (by simp)
    obtain ⟨ys, h1, h2, h3⟩ := ih (fun z hz => h z (List.mem_cons_of_mem _ hz))
    refine ⟨y :: ys, ?_, by simp [h2], ?_⟩
    · rw [List.mapM_cons, hy, h1]; rfl
    · intro i x' y' hx hy'
      cases i with
      | zero => simp at hx hy'; subst hx; subst hy'; exact hp
      | succ i => simp at hx hy'; exact h3 i x' y' hx hy'

/-- What one call does, for a table with the given columns. -/
structure TableOK (nd : PNode α σ) (cols : Dict Name (List (Val α))) (rows : Nat) : Prop where
  outputs : nd.outputs = cols.keys
  nodup : cols.keys.Nodup
  several : cols.length ≠ 1
  dotN : '.' ∉ nd.str
  dotC : ∀ c ∈ cols.keys, '.' ∉ c
  len : ∀ q ∈ cols, q.2.length = rows
  pos : 0 < rows

/-- The rows `inds` of the table were stored, column by column. -/
def StoredRows (nd : PNode α σ) (cols : Dict Name (List (Val α))) (s s' : GState α) (inds : List Nat) : Prop :=
  ∀ c col, (c, col) ∈ cols → isFixed s nd.str c ∨
    ∃ v, readParam s' nd.str c = some v ∧ (rowsOf s.numSamples v).length = s.numSamples ∧
      ∀ (k i : Nat), inds[k]? = some i → sampleAt s.numSamples v k = col[i]?

theorem indices_ok (G : IntGen ρ) {cols : Dict Name (List (Val α))} {rows : Nat} (hpos : 0 < rows)
    (t : TableSampler α) (hc : t.cols = cols) (hr : t.rows = rows) (r : ρ) (n : Nat) :
    (t.inOrder = true ∧ rows < t.next + n ∧ t.indices G r n = ((t, r), .error .indexError)) ∨
    (∃ r' inds, t.indices G r n = (({ t with next := if t.inOrder then t.next + n else t.next }, r'), .ok inds) ∧
      (t.inOrder = true → t.next + n ≤ rows ∧ inds = List.range' t.next n) ∧
      inds.length = n ∧ ∀ i ∈ inds, i < rows) := by
  unfold TableSampler.indices
  cases hi : t.inOrder with
  | true =>
    simp only [if_true]
    by_cases h : t.next + n > t.rows
    · left; simp only [h, if_true]; exact ⟨trivial, by omega, trivial⟩
    · right; simp only [h, if_false]
      refine ⟨r, _, rfl, fun _ => ⟨by omega, rfl⟩, by simp, ?_⟩
      intro i hi
      rw [List.mem_range'_1] at hi
      omega
  | false =>
    right
    refine ⟨(G.draw r t.rows n).1, (G.draw r t.rows n).2, ?_, (fun h => by cases h), G.length r t.rows n, ?_⟩
    · simp only [Bool.false_eq_true, if_false]
      cases t; simp only at hi; subst hi; rfl
    · intro i h; rw [← hr]; exact G.lt r t.rows n (by omega) i h

/-- The results of one call, column by column. -/
def ResultRows (cols : Dict Name (List (Val α))) (n : Nat) (res : Val α) (inds : List Nat) : Prop :=
  ∃ vs, res = .arr vs ∧ vs.length = cols.length ∧ ∀ (j : Nat) c col, cols[j]? = some (c, col) →
    ∃ v, vs[j]? = some v ∧ Fits n v ∧ ∀ (k i : Nat), inds[k]? = some i → sampleAt n v k = col[i]?

theorem table_step_full (G : IntGen ρ) (nd : PNode α σ) {cols : Dict Name (List (Val α))} {rows : Nat}
    (h : TableOK nd cols rows) (t : TableSampler α) (hc : t.cols = cols) (hr : t.rows = rows) (r : ρ)
    (s : GState α) (hs : Reachable s) :
    (t.inOrder = true ∧ rows < t.next + s.numSamples ∧ t.compute G nd r s = ((t, r), s, .error .indexError)) ∨
    (∃ r' inds res s', t.compute G nd r s =
        (({ t with next := if t.inOrder then t.next + s.numSamples else t.next }, r'), s', .ok res) ∧
      (t.inOrder = true → t.next + s.numSamples ≤ rows ∧ inds = List.range' t.next s.numSamples) ∧
      inds.length = s.numSamples ∧ (∀ i ∈ inds, i < rows) ∧ StoredRows nd cols s s' inds ∧
      (∀ m p, (m ≠ nd.str ∨ p ∉ cols.keys ∨ isFixed s m p) → readParam s' m p = readParam s m p) ∧
      ResultRows cols s.numSamples res inds ∧ Heap.saveResultsS nd s res = (s', none)) := by
  have hn : 1 ≤ s.numSamples := (reachable_wf hs).pos
  unfold TableSampler.compute
  rcases indices_ok G h.pos t hc hr r s.numSamples with ⟨h1, h2, h3⟩ | ⟨r', inds, h1, h2, h3, h4⟩
  · left; rw [h3]; exact ⟨h1, h2, rfl⟩
  · right
    rw [h1]
    simp only
    obtain ⟨vs, e1, e2, e3⟩ := mapM_ok_of_forall (fun name => match t.cols.get? name with
        | none => .error .keyError
        | some col => TableSampler.column s.numSamples inds col)
      (fun name v => Fits s.numSamples v ∧ ∀ col, cols.get? name = some col →
        ∀ (k i : Nat), inds[k]? = some i → sampleAt s.numSamples v k = col[i]?) nd.outputs (by
      intro name hname
      rw [h.outputs] at hname
      obtain ⟨q, hq, rfl⟩ := List.mem_map.1 hname
      have hget := Dict.get?_of_mem h.nodup (k := q.1) (v := q.2) hq
      obtain ⟨v, f1, f2, f3⟩ := column_ok s.numSamples hn inds h3 q.2 (fun i hi => by
        rw [h.len q hq]; exact h4 i hi)
      refine ⟨v, ?_, f2, ?_⟩
      · rw [hc, hget]; exact f1
      · intro col hcol; rw [hget] at hcol; cases hcol; exact f3)
    have hcol : t.collect nd.outputs s.numSamples inds = .ok vs := e1
    rw [hcol]
    simp only
    have hlen : nd.outputs.length ≠ 1 := by
      rw [h.outputs]; simp [Dict.keys]; exact h.several
    obtain ⟨s', g1, g2, g3⟩ := save_many nd hlen (by rw [h.outputs]; exact h.nodup) h.dotN
      (by rw [h.outputs]; exact h.dotC) s hs vs e2 (by
        intro v hv
        obtain ⟨i, hi⟩ := List.getElem?_of_mem hv
        have hlt : i < nd.outputs.length := by
          rw [← e2]; exact (List.getElem?_eq_some_iff.1 hi).1
        exact (e3 i _ v (List.getElem?_eq_getElem hlt) hi).1)
    rw [g1]
    refine ⟨r', inds, _, s', rfl, h2, h3, h4, ?_, by rw [← h.outputs]; exact g3, ⟨vs, rfl, by rw [e2, h.outputs]; simp [Dict.keys], ?_⟩, g1⟩
    intro c col hm
    have hget := Dict.get?_of_mem h.nodup hm
    have hmem : c ∈ nd.outputs := by rw [h.outputs]; exact List.mem_map.2 ⟨_, hm, rfl⟩
    obtain ⟨i, hi⟩ := List.getElem?_of_mem hmem
    have hlt : i < vs.length := by
      rw [e2]; exact (List.getElem?_eq_some_iff.1 hi).1
    have hv := List.getElem?_eq_getElem hlt
    obtain ⟨k1, k2⟩ := e3 i c _ hi hv
    rcases g2 i c _ hi hv with h | h
    · exact Or.inl h
    · exact Or.inr ⟨_, h, k1.1, k2 col hget⟩
    intro j c col hj
    have hm : (c, col) ∈ cols := List.mem_of_getElem? hj
    have hget := Dict.get?_of_mem h.nodup hm
    have ho : nd.outputs[j]? = some c := by rw [h.outputs]; unfold Dict.keys; rw [List.getElem?_map, hj]; rfl
    have hlt : j < vs.length := by rw [e2]; exact (List.getElem?_eq_some_iff.1 ho).1
    have hv := List.getElem?_eq_getElem hlt
    obtain ⟨k1, k2⟩ := e3 j c _ ho hv
    exact ⟨_, hv, k1, k2 col hget⟩

theorem table_step (G : IntGen ρ) (nd : PNode α σ) {cols : Dict Name (List (Val α))} {rows : Nat}
    (h : TableOK nd cols rows) (t : TableSampler α) (hc : t.cols = cols) (hr : t.rows = rows) (r : ρ)
    (s : GState α) (hs : Reachable s) :
    (t.inOrder = true ∧ rows < t.next + s.numSamples ∧ t.compute G nd r s = ((t, r), s, .error .indexError)) ∨
    (∃ r' inds res s', t.compute G nd r s =
        (({ t with next := if t.inOrder then t.next + s.numSamples else t.next }, r'), s', .ok res) ∧
      (t.inOrder = true → t.next + s.numSamples ≤ rows ∧ inds = List.range' t.next s.numSamples) ∧
      inds.length = s.numSamples ∧ (∀ i ∈ inds, i < rows) ∧ StoredRows nd cols s s' inds ∧
      ∀ m p, (m ≠ nd.str ∨ p ∉ cols.keys ∨ isFixed s m p) → readParam s' m p = readParam s m p) := by
  rcases table_step_full G nd h t hc hr r s hs with h | ⟨r', inds, res, s', a1, a2, a3, a4, a5, a6, _⟩
  · exact Or.inl h
  · exact Or.inr ⟨r', inds, res, s', a1, a2, a3, a4, a5, a6⟩

theorem served_snoc (evs : List (Event α)) (e : Event α) : served (evs ++ [e]) = match e with
    | .reset => 0
    | .asked n (.ok _) => served evs + n
    | .asked _ (.error _) => served evs := by
  unfold served; rw [List.foldl_append]; rfl

theorem table_inv (G : IntGen ρ) (nd : PNode α σ) {cols : Dict Name (List (Val α))} {rows : Nat}
    (h : TableOK nd cols rows) (ord : Bool) (calls : List (Call α)) (hr : ReachableCalls calls) :
    ∀ (t : TableSampler α) (r : ρ) (evs : List (Event α)), t.cols = cols → t.rows = rows → t.inOrder = ord →
      (ord = true → t.next = served evs) →
      ∃ R, calls.foldl (tableStep G nd) ((t, r), evs) = R ∧ R.1.1.cols = cols ∧ R.1.1.rows = rows ∧
        R.1.1.inOrder = ord ∧ (ord = true → R.1.1.next = served R.2) := by
  induction calls with
  | nil => intro t r evs h1 h2 h3 h4; exact ⟨_, rfl, h1, h2, h3, h4⟩
  | cons c calls ih =>
    intro t r evs h1 h2 h3 h4
    rw [List.foldl_cons]
    have hr' : ReachableCalls calls := fun s h => hr s (List.mem_cons_of_mem _ h)
    cases c with
    | reset => exact ih hr' t.reset r _ h1 h2 h3 (fun _ => by rw [served_snoc]; rfl)
    | compute s =>
      rcases table_step G nd h t h1 h2 r s (hr s (by simp)) with ⟨_, _, e⟩ | ⟨r', inds, res, s', e, _⟩
      · simp only [tableStep, e]
        exact ih hr' t r _ h1 h2 h3 (fun ho => by rw [served_snoc]; exact h4 ho)
      · simp only [tableStep, e]
        refine ih hr' { t with next := if t.inOrder then t.next + s.numSamples else t.next } r' _ h1 h2 h3 ?_
        intro ho
        rw [served_snoc]
        simp only [h3, ho, if_true]
        rw [h4 ho]

/-- C20, for tables with at least two columns (see `C20_single_column_counterexample` for one). After any history of
`compute` and `reset` calls, the next `compute` stores whole rows: there are row indices, one per
sample and all of existing rows, such that every (not fixed) column parameter holds, for sample
`k`, that column's entry of row `inds[k]`; nothing else in the state changes. In order, these are the
next rows after those handed out since the last reset; when they run out the call raises
`IndexError` and changes neither sampler, generator nor state. At random it never raises. -/
theorem C20_rows_together_partial (G : IntGen ρ) (nd : PNode α σ) (cols : Dict Name (List (Val α))) (ord : Bool)
    (t0 : TableSampler α) (h0 : TableSampler.init cols ord = .ok t0) (hout : nd.outputs = cols.keys)
    (hnd : cols.keys.Nodup) (hsev : cols.length ≠ 1) (hd1 : '.' ∉ nd.str) (hd2 : ∀ c ∈ cols.keys, '.' ∉ c)
    (r0 : ρ) (calls : List (Call α)) (hr : ReachableCalls calls) (s : GState α) (hs : Reachable s)
    (T : TableSampler α) (r : ρ) (evs : List (Event α)) (hrun : tableRun G nd t0 r0 calls = ((T, r), evs)) :
    (∃ st s' res, ∃ inds : List Nat, T.compute G nd r s = (st, s', .ok res) ∧ inds.length = s.numSamples ∧
      (∀ i ∈ inds, ∀ c col, (c, col) ∈ cols → i < col.length) ∧
      (∀ c col, (c, col) ∈ cols → isFixed s nd.str c ∨ ∃ v, readParam s' nd.str c = some v ∧
        (rowsOf s.numSamples v).length = s.numSamples ∧
        ∀ (k i : Nat), inds[k]? = some i → sampleAt s.numSamples v k = col[i]?) ∧
      (ord = true → ∀ k, k < s.numSamples → inds[k]? = some (served evs + k)) ∧
      ∀ m p, (m ≠ nd.str ∨ p ∉ cols.keys ∨ isFixed s m p) → readParam s' m p = readParam s m p) ∨
    (ord = true ∧ (∀ c col, (c, col) ∈ cols → col.length < served evs + s.numSamples) ∧
      T.compute G nd r s = ((T, r), s, .error .indexError)) := by
  have hok : ∃ rows, t0 = ⟨cols, rows, ord, 0⟩ ∧ TableOK nd cols rows := by
    unfold TableSampler.init at h0
    split at h0
    · cases h0
    · rename_i c rest
      split at h0
      · rename_i hall
        split at h0
        · cases h0
        · cases h0
          refine ⟨_, rfl, hout, hnd, hsev, hd1, hd2, ?_, by omega⟩
          intro q hq
          simpa using List.all_eq_true.1 hall q hq
      · cases h0
  obtain ⟨rows, rfl, hT⟩ := hok
  obtain ⟨R, e, h1, h2, h3, h4⟩ := table_inv G nd hT ord calls hr ⟨cols, rows, ord, 0⟩ r0 [] rfl rfl rfl (fun _ => rfl)
  have hR : R = ((T, r), evs) := by rw [← e]; exact hrun
  subst hR
  simp only at h1 h2 h3 h4
  rcases table_step G nd hT T h1 h2 r s hs with ⟨g1, g2, g3⟩ | ⟨r', inds, res, s', g1, g2, g3, g4, g5, g6⟩
  · right
    refine ⟨h3 ▸ g1, ?_, g3⟩
    intro c col hm
    rw [hT.len _ hm, ← h4 (h3 ▸ g1)]; exact g2
  · left
    refine ⟨_, s', res, inds, g1, g3, ?_, g5, ?_, g6⟩
    · intro i hi c col hm; rw [hT.len _ hm]; exact g4 i hi
    · intro ho k hk
      obtain ⟨_, hi⟩ := g2 (h3.trans ho)
      rw [hi, List.getElem?_range' hk, h4 ho]; simp

/-- A generator that always draws zero. -/
def zeroGen : IntGen Unit := ⟨fun _ _ n => ((), List.replicate n 0), by simp, by
  intro r hi n h k hk; simp at hk; omega⟩

/-- A one-column sampler node. -/
def colNode (outs : List Name) : PNode Nat Unit :=
  { cls := [], label := some ['t'], isFunc := true, funcName := none, body := none, attrs := [], pos := none,
    str := ['t'], setters := [], argNames := [], outputs := outs }

/-- C20 is false of one-column tables: the list of columns is taken for the value. With one sample
a length-one list is stored instead of the entry; with two or more samples the call raises. -/
theorem C20_single_column_counterexample :
    (∃ t0 : TableSampler Nat, TableSampler.init [(['a'], [.scalar 4, .scalar 5])] true = .ok t0 ∧
      (∃ s : GState Nat, GState.init 1 = .ok s ∧
        readParam (t0.compute zeroGen (colNode [['a']]) () s).2.1 ['t'] ['a'] = some (.arr [.scalar 4])) ∧
      ∃ s : GState Nat, GState.init 2 = .ok s ∧
        (t0.compute zeroGen (colNode [['a']]) () s).2.2 = .error .valueError) :=
  ⟨_, rfl, ⟨_, rfl, rfl⟩, _, rfl, rfl⟩

/-- The hypotheses of C20 are met by a two-column table, used in order. -/
example : ∃ t0 : TableSampler Nat,
    TableSampler.init [(['a'], [.scalar 4, .scalar 5, .scalar 6]), (['b'], [.scalar 7, .scalar 8, .scalar 9])] true = .ok t0 ∧
    ∃ s : GState Nat, GState.init 2 = .ok s ∧
      readParam (t0.compute zeroGen (colNode [['a'], ['b']]) () s).2.1 ['t'] ['b'] = some (.arr [.scalar 7, .scalar 8]) ∧
      ((t0.compute zeroGen (colNode [['a'], ['b']]) () s).1.1.compute zeroGen (colNode [['a'], ['b']]) () s).2.2 =
        .error .indexError :=
  ⟨_, rfl, _, rfl, rfl, rfl⟩

example : ReachableCalls ([.compute ⟨1, 0, [], []⟩, .reset] : List (Call Nat)) := by
  intro s h
  simp at h
  subst h
  exact ⟨1, _, [], rfl, rfl⟩

end LCL.SamplerProps
