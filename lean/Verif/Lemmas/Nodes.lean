import Verif.Spec.Nodes
import Verif.Lemmas.GraphState3

/-! # Lemmas about sampling -/

namespace LCL.NodeLemmas
open LCL LCL.GraphSpec LCL.GraphLemmas LCL.NodeSpec
variable {α σ : Type}

abbrev Run (α σ : Type) := Heap.Run α σ

/-- Monotone extension of a run: nothing stored is changed. -/
structure Weak (r r' : Run α σ) : Prop where
  num : r'.gs.numSamples = r.gs.numSamples
  fixed : ∀ n, fixedOf r'.gs n = fixedOf r.gs n
  look : ∀ n p v, look r.gs n p = some v → GraphLemmas.look r'.gs n p = some v
  seen : ∀ n id, r.seen.get? n = some id → r'.seen.get? n = some id
  calls : ∃ new, r'.calls = r.calls ++ new

theorem Weak.refl (r : Run α σ) : Weak r r :=
  ⟨rfl, fun _ => rfl, fun _ _ _ h => h, fun _ _ h => h, [], by simp⟩

theorem Weak.trans {a b c : Run α σ} (h1 : Weak a b) (h2 : Weak b c) : Weak a c := by
  obtain ⟨n1, e1⟩ := h1.calls
  obtain ⟨n2, e2⟩ := h2.calls
  exact ⟨h2.num.trans h1.num, fun n => (h2.fixed n).trans (h1.fixed n),
    fun n p v h => h2.look n p v (h1.look n p v h),
    fun n id h => h2.seen n id (h1.seen n id h), n1 ++ n2, by rw [e2, e1, List.append_assoc]⟩

/-- `Equation` with the direct lookup. -/
def EqL (H : Heap α σ) (r : Run α σ) (id : NodeId) (nd : PNode α σ) (p : Name) : Src α → Prop
  | .const v => ∃ w, look r.gs nd.str p = some w ∧ Repeated r.gs.numSamples v w
  | .modelParam d q => ∃ dn w, H[d]? = some dn ∧ look r.gs dn.str q = some w ∧
      look r.gs nd.str p = some w
  | .funcNode d q => ∃ dn w, H[d]? = some dn ∧ look r.gs dn.str q = some w ∧
      look r.gs nd.str p = some w
  | .computeOut _ => ∃ args res u w, (id, args, res) ∈ r.calls ∧
      ((∀ a ∈ nd.argNames, ∃ v, look r.gs nd.str a = some v ∧ args.get? a = some v) ∧
        ∀ a, a ∉ nd.argNames → args.get? a = none) ∧
      OutputOf nd.outputs p res u ∧ storedAs r.gs.numSamples u w ∧ look r.gs nd.str p = some w
  | .undefined => False

theorem EqL.mono {H : Heap α σ} {r r' : Run α σ} (h : Weak r r') {id : NodeId} {nd : PNode α σ}
    {p : Name} {s : Src α} (e : EqL H r id nd p s) : EqL H r' id nd p s := by
  cases s with
  | undefined => exact e
  | const v =>
    obtain ⟨w, h1, h2⟩ := e
    exact ⟨w, h.look _ _ _ h1, by rw [h.num]; exact h2⟩
  | modelParam d q =>
    obtain ⟨dn, w, h0, h1, h2⟩ := e
    exact ⟨dn, w, h0, h.look _ _ _ h1, h.look _ _ _ h2⟩
  | funcNode d q =>
    obtain ⟨dn, w, h0, h1, h2⟩ := e
    exact ⟨dn, w, h0, h.look _ _ _ h1, h.look _ _ _ h2⟩
  | computeOut q =>
    obtain ⟨args, res, u, w, h0, ⟨h1, h1'⟩, h2, h3, h4⟩ := e
    obtain ⟨new, hn⟩ := h.calls
    refine ⟨args, res, u, w, by rw [hn]; exact List.mem_append_left _ h0, ⟨?_, h1'⟩, h2,
      by rw [h.num]; exact h3, h.look _ _ _ h4⟩
    intro a ha
    obtain ⟨v, e1, e2⟩ := h1 a ha
    exact ⟨v, h.look _ _ _ e1, e2⟩

/-- Node `j` is completely sampled. -/
def NodeDone (H : Heap α σ) (r : Run α σ) (j : NodeId) : Prop :=
  ∃ nd, H[j]? = some nd ∧
    (∀ q ∈ nd.setters, q.1 ∈ fixedOf r.gs nd.str ∨ EqL H r j nd q.1 q.2.src) ∧
    (∀ q ∈ nd.setters, ∀ d, q.2.src.dep = some d → ∃ dn, H[d]? = some dn ∧ r.seen.get? dn.str = some d) ∧
    (nd.outputs ≠ [] → j ∈ r.calls.map (·.1)) ∧
    (∀ q ∈ nd.setters, q.2.src ≠ .undefined)

theorem NodeDone.mono {H : Heap α σ} {r r' : Run α σ} (h : Weak r r') {j : NodeId}
    (e : NodeDone H r j) : NodeDone H r' j := by
  obtain ⟨nd, h0, h1, h2, h3, h4⟩ := e
  refine ⟨nd, h0, ?_, ?_, ?_, h4⟩
  · intro q hq
    rcases h1 q hq with h' | h'
    · left; rw [h.fixed]; exact h'
    · exact Or.inr (h'.mono h)
  · intro q hq d hd
    obtain ⟨dn, e1, e2⟩ := h2 q hq d hd
    exact ⟨dn, e1, h.seen _ _ e2⟩
  · intro ho
    obtain ⟨new, hn⟩ := h.calls
    rw [hn, List.map_append]
    exact List.mem_append_left _ (h3 ho)

/-- Invariant of a sampling run. -/
structure Inv (H : Heap α σ) (w0 : σ) (R : NodeId → Prop) (r : Run α σ) : Prop where
  wf : WF r.gs
  seenOK : ∀ n id, r.seen.get? n = some id → ∃ nd, H[id]? = some nd ∧ nd.str = n
  reach : ∀ n id, r.seen.get? n = some id → R id
  stored : ∀ n p v, look r.gs n p = some v → p ∈ fixedOf r.gs n ∨
    ∃ id nd, r.seen.get? n = some id ∧ H[id]? = some nd ∧ p ∈ nd.setters.keys
  callsOK : ∀ c ∈ r.calls, ∃ nd, H[c.1]? = some nd ∧ r.seen.get? nd.str = some c.1 ∧ nd.outputs ≠ []
  callsNodup : (r.calls.map (·.1)).Nodup
  thread : Thread H r.gs.numSamples w0 r.calls r.world

/-! ## Writes -/

theorem write_ok {r r' : Run α σ} (hw : WF r.gs) {n p : Name} {v : Val α}
    (h : Heap.write r n p v = .ok r') :
    r'.seen = r.seen ∧ r'.calls = r.calls ∧ r'.world = r.world ∧
    r'.gs.numSamples = r.gs.numSamples ∧ WF r'.gs ∧ (∀ m, fixedOf r'.gs m = fixedOf r.gs m) ∧
    ((p ∈ fixedOf r.gs n ∧ ∀ n' p', look r'.gs n' p' = look r.gs n' p') ∨
     (p ∉ fixedOf r.gs n ∧ ∃ w, GState.normalise r.gs.numSamples v = .ok w ∧
      ∀ n' p', look r'.gs n' p' = if n = n' ∧ p = p' then some w else look r.gs n' p')) := by
  unfold Heap.write at h
  have heff := set_effect r.gs hw n p v false
  have herr := set_error_iff r.gs hw n p v false
  rcases hs : r.gs.set n p v false with ⟨s', e⟩
  rw [hs] at h heff herr
  cases e with
  | some e => cases h
  | none =>
    cases h
    obtain ⟨h1, h2, h3⟩ := heff
    have hok := herr.1 rfl
    simp only at h1 h2 h3 ⊢
    refine ⟨trivial, trivial, trivial, h2, h1, ?_, ?_⟩
    · rcases h3 with ⟨_, _, h3⟩ | ⟨_, _, w, _, _, h3⟩
      · exact h3
      · intro m; rw [h3 m]; simp
    · rcases h3 with ⟨h0, h3, _⟩ | ⟨_, hnf, w, hwn, h3, _⟩
      · by_cases hf : p ∈ fixedOf r.gs n
        · exact Or.inl ⟨hf, h3⟩
        · exfalso
          rcases h0 with h0 | h0 | ⟨e, h0⟩
          · rw [h0] at hok; cases hok.1
          · exact hf h0
          · rcases hok.2 with h' | ⟨w, h'⟩
            · exact hf h'
            · rw [h0] at h'; cases h'
      · exact Or.inr ⟨hnf, w, hwn, h3⟩

/-- Some writes to the parameters `P` of one node. -/
structure Wrote (str : Name) (P : List Name) (r r' : Run α σ) : Prop where
  seen : r'.seen = r.seen
  calls : r'.calls = r.calls
  world : r'.world = r.world
  num : r'.gs.numSamples = r.gs.numSamples
  wf : WF r'.gs
  fixed : ∀ m, fixedOf r'.gs m = fixedOf r.gs m
  other : ∀ n p, (n ≠ str ∨ p ∉ P ∨ p ∈ fixedOf r.gs n) → look r'.gs n p = look r.gs n p

theorem Wrote.weak {str : Name} {P : List Name} {r r' : Run α σ} (h : Wrote str P r r')
    (hnew : ∀ p ∈ P, p ∉ fixedOf r.gs str → look r.gs str p = none) : Weak r r' := by
  refine ⟨h.num, h.fixed, ?_, ?_, [], by simp [h.calls]⟩
  · intro n p v hl
    by_cases hc : n ≠ str ∨ p ∉ P ∨ p ∈ fixedOf r.gs n
    · rw [h.other n p hc]; exact hl
    · simp only [not_or, ne_eq, Classical.not_not] at hc
      obtain ⟨rfl, hp, hf⟩ := hc
      rw [hnew p hp hf] at hl; cases hl
  · intro n id hs; rw [h.seen]; exact hs

theorem write_wrote {r r' : Run α σ} (hw : WF r.gs) {n p : Name} {v : Val α}
    (h : Heap.write r n p v = .ok r') : Wrote n [p] r r' ∧
      (p ∈ fixedOf r.gs n ∨ ∃ w, storedAs r.gs.numSamples v w ∧ look r'.gs n p = some w) := by
  obtain ⟨h1, h2, h3, h4, h5, h6, h7⟩ := write_ok hw h
  refine ⟨⟨h1, h2, h3, h4, h5, h6, ?_⟩, ?_⟩
  · intro n' p' hc
    rcases h7 with ⟨_, h7⟩ | ⟨hnf, w, _, h7⟩
    · exact h7 n' p'
    · rw [h7]
      have : ¬ (n = n' ∧ p = p') := by
        rintro ⟨rfl, rfl⟩
        rcases hc with hc | hc | hc
        · exact hc rfl
        · simp at hc
        · exact hnf hc
      rw [if_neg this]
  · rcases h7 with ⟨hf, _⟩ | ⟨_, w, hwn, h7⟩
    · exact Or.inl hf
    · exact Or.inr ⟨w, (normalise_ok_iff _ _ _).1 hwn, by rw [h7]; simp⟩

theorem saveAll_wrote (nd : PNode α σ) : ∀ (l : List (Name × Val α)) (r r' : Run α σ), WF r.gs →
    (l.map (·.1)).Nodup → Heap.saveAll nd r l = .ok r' →
    Wrote nd.str (l.map (·.1)) r r' ∧
      ∀ q ∈ l, q.1 ∈ fixedOf r.gs nd.str ∨
        ∃ w, storedAs r.gs.numSamples q.2 w ∧ look r'.gs nd.str q.1 = some w := by
  intro l
  induction l with
  | nil =>
    intro r r' hw _ h
    cases h
    exact ⟨⟨rfl, rfl, rfl, rfl, hw, fun _ => rfl, fun _ _ _ => rfl⟩, by simp⟩
  | cons q l ih =>
    obtain ⟨name, v⟩ := q
    intro r r' hw hnd h
    simp only [List.map_cons, List.nodup_cons] at hnd
    unfold Heap.saveAll at h
    cases hw1 : Heap.write r nd.str name v with
    | error e => rw [hw1] at h; cases h
    | ok r1 =>
      rw [hw1] at h
      have hs : Heap.saveAll nd r1 l = .ok r' := h
      obtain ⟨a1, a2⟩ := write_wrote hw hw1
      obtain ⟨b1, b2⟩ := ih r1 r' a1.wf hnd.2 hs
      refine ⟨⟨b1.seen.trans a1.seen, b1.calls.trans a1.calls, b1.world.trans a1.world,
        b1.num.trans a1.num, b1.wf, fun m => (b1.fixed m).trans (a1.fixed m), ?_⟩, ?_⟩
      · intro n p hc
        rw [b1.other n p, a1.other n p]
        · rcases hc with hc | hc | hc
          · exact Or.inl hc
          · exact Or.inr (Or.inl (by simp at hc ⊢; exact hc.1))
          · exact Or.inr (Or.inr hc)
        · rcases hc with hc | hc | hc
          · exact Or.inl hc
          · exact Or.inr (Or.inl (by intro hm; apply hc; simp; exact Or.inr (by simpa using hm)))
          · exact Or.inr (Or.inr (by rw [a1.fixed]; exact hc))
      · intro q hq
        rcases List.mem_cons.1 hq with rfl | hq
        · rcases a2 with a2 | ⟨w, e1, e2⟩
          · exact Or.inl a2
          · right
            refine ⟨w, e1, ?_⟩
            rw [b1.other]
            · exact e2
            · exact Or.inr (Or.inl hnd.1)
        · rcases b2 q hq with b2 | ⟨w, e1, e2⟩
          · left; rw [← a1.fixed]; exact b2
          · right; exact ⟨w, by rw [← a1.num]; exact e1, e2⟩

theorem saveResults_wrote (nd : PNode α σ) (r r' : Run α σ) (res : Val α) (hw : WF r.gs)
    (hnd : nd.outputs.Nodup) (h : Heap.saveResults nd r res = .ok r') :
    Wrote nd.str nd.outputs r r' ∧
      ∀ p ∈ nd.outputs, p ∈ fixedOf r.gs nd.str ∨
        ∃ u w, OutputOf nd.outputs p res u ∧ storedAs r.gs.numSamples u w ∧
          look r'.gs nd.str p = some w := by
  unfold Heap.saveResults at h
  split at h
  · rename_i o ho
    obtain ⟨a1, a2⟩ := write_wrote hw h
    rw [ho]
    refine ⟨a1, ?_⟩
    intro p hp
    simp at hp; subst hp
    rcases a2 with a2 | ⟨w, e1, e2⟩
    · exact Or.inl a2
    · exact Or.inr ⟨res, w, Or.inl ⟨rfl, rfl⟩, e1, e2⟩
  · rename_i hne
    split at h
    · rename_i rows
      split at h
      · cases h
      · rename_i hlen
        have hlen' : rows.length = nd.outputs.length := by omega
        have hz : (nd.outputs.zip rows).map (·.1) = nd.outputs := by
          rw [← List.unzip_fst, List.unzip_zip (by omega)]
        obtain ⟨a1, a2⟩ := saveAll_wrote nd _ r r' hw (by rw [hz]; exact hnd) h
        rw [hz] at a1
        refine ⟨a1, ?_⟩
        intro p hp
        obtain ⟨i, hi, rfl⟩ := List.getElem_of_mem hp
        have hir : i < rows.length := by omega
        have hmem : (nd.outputs[i], rows[i]) ∈ nd.outputs.zip rows := by
          have : (nd.outputs.zip rows)[i]'(by simp; omega) = (nd.outputs[i], rows[i]) := by simp
          rw [← this]; exact List.getElem_mem _
        rcases a2 _ hmem with a2 | ⟨w, e1, e2⟩
        · exact Or.inl a2
        · refine Or.inr ⟨rows[i], w, Or.inr ⟨?_, rows, i, rfl, hlen', ?_, ?_⟩, e1, e2⟩
          · intro h1
            obtain ⟨o, ho⟩ := List.length_eq_one_iff.1 h1
            exact hne o ho
          · simp [List.getElem?_eq_getElem hi]
          · simp [List.getElem?_eq_getElem hir]
    · cases h

/-! ## Lookups -/

theorem lookParam_ok {s : GState α} {n p : Name} {v : Val α} (h : Heap.lookParam s n p = .ok v) :
    look s n p = some v := by
  unfold Heap.lookParam at h
  split at h
  · rename_i d hd
    split at h
    · rename_i v' hv
      cases h
      unfold GState.getItem at hd
      split at hd
      · rename_i d' hd'
        cases hd
        simp [look, hd', hv]
      · split at hd
        · split at hd
          · split at hd
            · cases hd
            · split at hd
              · cases hd
              · cases hd
          · cases hd
        · split at hd
          · split at hd
            · cases hd
            · cases hd
          · cases hd
    · cases h
  · cases h
  · cases h

theorem lookParam_of_look {s : GState α} {n p : Name} {v : Val α} (h : look s n p = some v) :
    Heap.lookParam s n p = .ok v := by
  unfold look at h
  cases hd : s.states.get? n with
  | none => simp [hd] at h
  | some d =>
    simp only [hd, Option.bind_some] at h
    unfold Heap.lookParam GState.getItem
    simp [hd, h]

theorem buildInputs_fold (nd : PNode α σ) (s : GState α) : ∀ (l : List Name) (a0 args : Dict Name (Val α)),
    l.foldlM (fun (args : Dict Name (Val α)) key => do
      match Dict.get? ([] : Dict Name (Val α)) key with
      | some v => return args.set key v
      | none => return args.set key (← Heap.lookParam s nd.str key)) a0 = .ok args →
    ∀ a, (a ∈ l → ∃ v, look s nd.str a = some v ∧ args.get? a = some v) ∧
      (a ∉ l → args.get? a = a0.get? a) := by
  intro l
  induction l with
  | nil => intro a0 args h; cases h; simp
  | cons k l ih =>
    intro a0 args h a
    rw [List.foldlM_cons] at h
    simp only [Dict.get?_nil, bind, Except.bind] at h
    cases hl : Heap.lookParam s nd.str k with
    | error e => rw [hl] at h; cases h
    | ok v =>
      rw [hl] at h
      obtain ⟨h1, h2⟩ := ih (a0.set k v) args h a
      refine ⟨?_, ?_⟩
      · intro ha
        by_cases hal : a ∈ l
        · exact h1 hal
        · rcases List.mem_cons.1 ha with rfl | ha
          · exact ⟨v, lookParam_ok hl, by rw [h2 hal]; simp⟩
          · exact absurd ha hal
      · intro ha
        simp only [List.mem_cons, not_or] at ha
        rw [h2 ha.2, Dict.get?_set, if_neg (fun e => ha.1 e.symm)]

theorem buildInputs_ok {nd : PNode α σ} {s : GState α} {args : Dict Name (Val α)}
    (h : Heap.buildInputs nd s [] = .ok args) :
    (∀ a ∈ nd.argNames, ∃ v, look s nd.str a = some v ∧ args.get? a = some v) ∧
    ∀ a, a ∉ nd.argNames → args.get? a = none := by
  have := buildInputs_fold nd s nd.argNames [] args h
  exact ⟨fun a ha => (this a).1 ha, fun a ha => by simpa using (this a).2 ha⟩

/-! ## The main induction -/

/-- New nodes are done; new calls belong to new nodes; nodes already seen are not touched. -/
structure Done (H : Heap α σ) (r r' : Run α σ) : Prop where
  weak : Weak r r'
  fin : ∀ n j, r'.seen.get? n = some j → r.seen.get? n = none → NodeDone H r' j
  newCalls : ∀ c ∈ r'.calls, c ∈ r.calls ∨ ∃ nd, H[c.1]? = some nd ∧ r.seen.get? nd.str = none
  frame : ∀ n id, r.seen.get? n = some id → ∀ p, look r'.gs n p = look r.gs n p

theorem Done.refl (H : Heap α σ) (r : Run α σ) : Done H r r :=
  ⟨Weak.refl r, fun n j h1 h2 => (by rw [h1] at h2; cases h2), fun _ h => Or.inl h, fun _ _ _ _ => rfl⟩

theorem Done.trans {H : Heap α σ} {a b c : Run α σ} (h1 : Done H a b) (h2 : Done H b c) :
    Done H a c := by
  refine ⟨h1.weak.trans h2.weak, ?_, ?_, ?_⟩
  · intro n j hc ha
    cases hb : b.seen.get? n with
    | none => exact h2.fin n j hc hb
    | some j' =>
      have := h2.weak.seen n j' hb
      rw [hc] at this; cases this
      exact (h1.fin n j hb ha).mono h2.weak
  · intro c hc
    rcases h2.newCalls c hc with h | ⟨nd, e1, e2⟩
    · exact h1.newCalls c h
    · right
      refine ⟨nd, e1, ?_⟩
      cases ha : a.seen.get? nd.str with
      | none => rfl
      | some i => rw [h1.weak.seen _ _ ha] at e2; cases e2
  · intro n id hs p
    rw [h2.frame n id (h1.weak.seen n id hs), h1.frame n id hs]

/-- Specification of a recursive call. -/
def Spec (H : Heap α σ) (w0 : σ) (R : NodeId → Prop) (rec : NodeId → Run α σ → Except Err (Run α σ)) : Prop :=
  ∀ id r r', R id → Inv H w0 R r → rec id r = .ok r' →
    Inv H w0 R r' ∧ Done H r r' ∧ ∃ nd, H[id]? = some nd ∧ r'.seen.get? nd.str = some id

/-- State of the loop over the setters of node `id`; `r1` is the run just after the node was
marked as seen, `done` the setters already handled. -/
structure LInv (H : Heap α σ) (w0 : σ) (R : NodeId → Prop) (id : NodeId) (nd : PNode α σ) (r1 : Run α σ)
    (done : List (Name × Setter α)) (r : Run α σ) (any : Bool) : Prop where
  inv : Inv H w0 R r
  weak : Weak r1 r
  fin : ∀ n j, r.seen.get? n = some j → r1.seen.get? n = none → NodeDone H r j
  newCalls : ∀ c ∈ r.calls, c ∈ r1.calls ∨ ∃ nd, H[c.1]? = some nd ∧ r1.seen.get? nd.str = none
  frame : ∀ n i, r1.seen.get? n = some i → n ≠ nd.str → ∀ p, look r.gs n p = look r1.gs n p
  unset : ∀ p, p ∉ fixedOf r.gs nd.str →
    (∀ q ∈ done, q.1 = p → ∃ o, q.2.src = .computeOut o) → look r.gs nd.str p = none
  eqs : ∀ q ∈ done, q.1 ∈ fixedOf r.gs nd.str ∨ (∃ o, q.2.src = .computeOut o) ∨
    EqL H r id nd q.1 q.2.src
  depsSeen : ∀ q ∈ done, ∀ d, q.2.src.dep = some d → ∃ dn, H[d]? = some dn ∧ r.seen.get? dn.str = some d
  any : any = true ↔ ∃ q ∈ done, ∃ o, q.2.src = .computeOut o
  defd : ∀ q ∈ done, q.2.src ≠ .undefined

theorem Inv.wrote {H : Heap α σ} {w0 : σ} {R : NodeId → Prop} {r r' : Run α σ} (h : Inv H w0 R r)
    {id : NodeId} {nd : PNode α σ} (hid : H[id]? = some nd) (hseen : r.seen.get? nd.str = some id)
    {P : List Name} (hP : ∀ p ∈ P, p ∈ nd.setters.keys) (hw : Wrote nd.str P r r') : Inv H w0 R r' := by
  refine ⟨hw.wf, ?_, ?_, ?_, ?_, ?_, ?_⟩
  · rw [hw.seen]; exact h.seenOK
  · rw [hw.seen]; exact h.reach
  · intro n p v hl
    rw [hw.seen, hw.fixed]
    by_cases hc : n ≠ nd.str ∨ p ∉ P ∨ p ∈ fixedOf r.gs n
    · rw [hw.other n p hc] at hl; exact h.stored n p v hl
    · simp only [not_or, ne_eq, Classical.not_not] at hc
      obtain ⟨rfl, hp, _⟩ := hc
      exact Or.inr ⟨id, nd, hseen, hid, hP p hp⟩
  · rw [hw.calls, hw.seen]; exact h.callsOK
  · rw [hw.calls]; exact h.callsNodup
  · rw [hw.calls, hw.num, hw.world]; exact h.thread

theorem constValue_stored {n : Nat} {v w : Val α} (h : storedAs n (Heap.constValue n v) w) :
    Repeated n v w := by
  unfold Heap.constValue at h
  rcases h with ⟨h1, h2⟩ | ⟨h1, rows, h2, h3, h4⟩
  · left; rw [if_pos h1] at h2; exact ⟨h1, h2⟩
  · right
    rw [if_neg h1] at h4
    refine ⟨h1, rows, h2, h3, ?_⟩
    rcases h4 with h4 | ⟨a, h4, _⟩
    · cases h4
      intro r hr
      exact (List.mem_replicate.1 hr).2
    · cases h4

theorem stored_self {s : GState α} (hs : Shape s) {n p : Name} {v w : Val α} (h : look s n p = some v)
    (hst : storedAs s.numSamples v w) : w = v := by
  have := normalise_stored s hs h
  rw [← normalise_ok_iff, this] at hst
  exact (Except.ok.inj hst).symm

/-- Handling the value part of one setter, once the dependency has been visited. -/
theorem step_write {H : Heap α σ} {w0 : σ} {R : NodeId → Prop} {id : NodeId} {nd : PNode α σ}
    {r1 r r' : Run α σ} {done : List (Name × Setter α)} {any : Bool} (hid : H[id]? = some nd)
    (hs1 : r1.seen.get? nd.str = some id) (q : Name × Setter α) (hq : q ∈ nd.setters)
    (hqn : ∀ x ∈ done, x.1 ≠ q.1) (h : LInv H w0 R id nd r1 done r any)
    (hdep : ∀ d, q.2.src.dep = some d → ∃ dn, H[d]? = some dn ∧ r.seen.get? dn.str = some d)
    (v : Val α) (hwr : Heap.write r nd.str q.1 v = .ok r') (hnc : ∀ o, q.2.src ≠ .computeOut o)
    (hnu : q.2.src ≠ .undefined)
    (heq : ∀ w, Weak r r' → storedAs r.gs.numSamples v w → look r'.gs nd.str q.1 = some w →
      EqL H r' id nd q.1 q.2.src) :
    LInv H w0 R id nd r1 (done ++ [q]) r' any := by
  obtain ⟨a1, a2⟩ := write_wrote h.inv.wf hwr
  have hnew : ∀ p ∈ [q.1], p ∉ fixedOf r.gs nd.str → look r.gs nd.str p = none := by
    intro p hp hf
    simp at hp; subst hp
    exact h.unset q.1 hf (fun x hx e => absurd e (hqn x hx))
  have hwk := a1.weak hnew
  have hsn : r.seen.get? nd.str = some id := h.weak.seen _ _ hs1
  have hqk : q.1 ∈ nd.setters.keys := List.mem_map.2 ⟨q, hq, rfl⟩
  refine ⟨h.inv.wrote hid hsn (by intro p hp; simp at hp; subst hp; exact hqk) a1, h.weak.trans hwk, ?_, ?_, ?_, ?_, ?_, ?_, ?_, ?_⟩
  · intro n j hj h1
    rw [a1.seen] at hj
    exact (h.fin n j hj h1).mono hwk
  · rw [a1.calls]; exact h.newCalls
  · intro n i hi hne p
    rw [a1.other n p (Or.inl hne)]; exact h.frame n i hi hne p
  · intro p hf hall
    rw [a1.fixed] at hf
    by_cases hp : p = q.1
    · subst hp
      obtain ⟨o, ho⟩ := hall q (by simp) rfl
      exact absurd ho (hnc o)
    · rw [a1.other _ p (Or.inr (Or.inl (by simpa using hp)))]
      exact h.unset p hf (fun x hx => hall x (List.mem_append_left _ hx))
  · intro x hx
    rw [a1.fixed]
    rcases List.mem_append.1 hx with hx | hx
    · rcases h.eqs x hx with e | e | e
      · exact Or.inl e
      · exact Or.inr (Or.inl e)
      · exact Or.inr (Or.inr (e.mono hwk))
    · simp at hx; subst hx
      rcases a2 with e | ⟨w, e1, e2⟩
      · exact Or.inl e
      · exact Or.inr (Or.inr (heq w hwk e1 e2))
  · intro x hx d hd
    rw [a1.seen]
    rcases List.mem_append.1 hx with hx | hx
    · exact h.depsSeen x hx d hd
    · simp at hx; subst hx; exact hdep d hd
  · rw [h.any]
    constructor
    · rintro ⟨x, hx, o⟩; exact ⟨x, List.mem_append_left _ hx, o⟩
    · rintro ⟨x, hx, o, ho⟩
      rcases List.mem_append.1 hx with hx | hx
      · exact ⟨x, hx, o, ho⟩
      · simp at hx; subst hx; exact absurd ho (hnc o)
  · intro x hx
    rcases List.mem_append.1 hx with hx | hx
    · exact h.defd x hx
    · simp at hx; subst hx; exact hnu

/-- Visiting a dependency inside the loop. -/
theorem step_rec {H : Heap α σ} {w0 : σ} {R : NodeId → Prop} {rec : NodeId → Run α σ → Except Err (Run α σ)}
    (hrec : Spec H w0 R rec) {id : NodeId} {nd : PNode α σ} {r1 r r' : Run α σ}
    {done : List (Name × Setter α)} {any : Bool} (hs1 : r1.seen.get? nd.str = some id)
    (h : LInv H w0 R id nd r1 done r any) (d : NodeId) (hd : R d) (hcall : rec d r = .ok r') :
    LInv H w0 R id nd r1 done r' any ∧ ∃ dn, H[d]? = some dn ∧ r'.seen.get? dn.str = some d := by
  obtain ⟨i1, i2, i3⟩ := hrec d r r' hd h.inv hcall
  have hsn : r.seen.get? nd.str = some id := h.weak.seen _ _ hs1
  refine ⟨⟨i1, h.weak.trans i2.weak, ?_, ?_, ?_, ?_, ?_, ?_, h.any, h.defd⟩, i3⟩
  · intro n j hj h1
    cases hr : r.seen.get? n with
    | none => exact i2.fin n j hj hr
    | some j' =>
      have := i2.weak.seen n j' hr
      rw [hj] at this; cases this
      exact (h.fin n j hr h1).mono i2.weak
  · intro c hc
    rcases i2.newCalls c hc with hc | ⟨nd', e1, e2⟩
    · exact h.newCalls c hc
    · right
      refine ⟨nd', e1, ?_⟩
      cases ha : r1.seen.get? nd'.str with
      | none => rfl
      | some i => rw [h.weak.seen _ _ ha] at e2; cases e2
  · intro n i hi hne p
    rw [i2.frame n i (h.weak.seen n i hi), h.frame n i hi hne]
  · intro p hf hall
    rw [i2.weak.fixed] at hf
    rw [i2.frame nd.str id hsn]
    exact h.unset p hf hall
  · intro x hx
    rw [i2.weak.fixed]
    rcases h.eqs x hx with e | e | e
    · exact Or.inl e
    · exact Or.inr (Or.inl e)
    · exact Or.inr (Or.inr (e.mono i2.weak))
  · intro x hx d' hd'
    obtain ⟨dn, e1, e2⟩ := h.depsSeen x hx d' hd'
    exact ⟨dn, e1, i2.weak.seen _ _ e2⟩

theorem step_setter {H : Heap α σ} {w0 : σ} {R : NodeId → Prop}
    {rec : NodeId → Run α σ → Except Err (Run α σ)}
    (hrec : Spec H w0 R rec) {id : NodeId} {nd : PNode α σ} (hid : H[id]? = some nd)
    (hR : ∀ q ∈ nd.setters, ∀ d, q.2.src.dep = some d → R d)
    {r1 r : Run α σ} (hs1 : r1.seen.get? nd.str = some id) {done : List (Name × Setter α)} {any : Bool}
    (q : Name × Setter α) (hq : q ∈ nd.setters) (hqn : ∀ x ∈ done, x.1 ≠ q.1)
    (h : LInv H w0 R id nd r1 done r any) (res : Run α σ × Bool)
    (hstep : Heap.stepSetter H rec id nd (r, any) q = .ok res) :
    LInv H w0 R id nd r1 (done ++ [q]) res.1 res.2 := by
  unfold Heap.stepSetter at hstep
  simp only [bind, Except.bind] at hstep
  -- visit the dependency
  have hvisit : ∀ r', Heap.visitDep rec id q.2.src r = Except.ok r' →
      LInv H w0 R id nd r1 done r' any ∧
        ∀ d, q.2.src.dep = some d → ∃ dn, H[d]? = some dn ∧ r'.seen.get? dn.str = some d := by
    intro r' hr'
    unfold Heap.visitDep at hr'
    cases hd : q.2.src.dep with
    | none =>
      rw [hd] at hr'
      cases hr'
      exact ⟨h, by intro d hd; cases hd⟩
    | some d =>
      rw [hd] at hr'
      simp only at hr'
      split at hr'
      · obtain ⟨h1, h2⟩ := step_rec hrec hs1 h d (hR q hq d hd) hr'
        exact ⟨h1, by intro d' e; cases e; exact h2⟩
      · rename_i hne
        simp only [ne_eq, Classical.not_not] at hne
        cases hr'
        refine ⟨h, ?_⟩
        intro d' e; cases e; subst hne
        exact ⟨nd, hid, h.weak.seen _ _ hs1⟩
  cases hv : Heap.visitDep rec id q.2.src r with
  | error e => simp only [hv] at hstep; cases hstep
  | ok r' =>
    simp only [hv] at hstep
    obtain ⟨h', hdep⟩ := hvisit r' hv
    cases hsrc : q.2.src with
    | undefined => rw [hsrc] at hstep; cases hstep
    | const v =>
      rw [hsrc] at hstep
      simp only at hstep
      cases hw : Heap.write r' nd.str q.1 (Heap.constValue r'.gs.numSamples v) with
      | error e => rw [hw] at hstep; cases hstep
      | ok r'' =>
        rw [hw] at hstep
        cases hstep
        refine step_write hid hs1 q hq hqn h' hdep _ hw (by intro o; rw [hsrc]; simp) (by rw [hsrc]; simp) ?_
        intro w hwk hst hl
        rw [hsrc]
        exact ⟨w, hl, by rw [hwk.num]; exact constValue_stored hst⟩
    | modelParam d p =>
      rw [hsrc] at hstep
      simp only at hstep
      cases hd : H[d]? with
      | none => rw [hd] at hstep; cases hstep
      | some dn =>
        rw [hd] at hstep
        simp only at hstep
        cases hlk : Heap.lookParam r'.gs dn.str p with
        | error e => rw [hlk] at hstep; cases hstep
        | ok v =>
          rw [hlk] at hstep
          simp only at hstep
          cases hw : Heap.write r' nd.str q.1 v with
          | error e => rw [hw] at hstep; cases hstep
          | ok r'' =>
            rw [hw] at hstep
            cases hstep
            refine step_write hid hs1 q hq hqn h' hdep _ hw (by intro o; rw [hsrc]; simp) (by rw [hsrc]; simp) ?_
            intro w hwk hst hl
            rw [hsrc]
            have hlv := lookParam_ok hlk
            have := stored_self h'.inv.wf.toShape hlv hst
            subst this
            exact ⟨dn, w, hd, hwk.look _ _ _ hlv, hl⟩
    | funcNode d p =>
      rw [hsrc] at hstep
      simp only at hstep
      cases hd : H[d]? with
      | none => rw [hd] at hstep; cases hstep
      | some dn =>
        rw [hd] at hstep
        simp only at hstep
        cases hlk : Heap.lookParam r'.gs dn.str p with
        | error e => rw [hlk] at hstep; cases hstep
        | ok v =>
          rw [hlk] at hstep
          simp only at hstep
          cases hw : Heap.write r' nd.str q.1 v with
          | error e => rw [hw] at hstep; cases hstep
          | ok r'' =>
            rw [hw] at hstep
            cases hstep
            refine step_write hid hs1 q hq hqn h' hdep _ hw (by intro o; rw [hsrc]; simp) (by rw [hsrc]; simp) ?_
            intro w hwk hst hl
            rw [hsrc]
            have hlv := lookParam_ok hlk
            have := stored_self h'.inv.wf.toShape hlv hst
            subst this
            exact ⟨dn, w, hd, hwk.look _ _ _ hlv, hl⟩
    | computeOut o =>
      rw [hsrc] at hstep
      cases hstep
      refine ⟨h'.inv, h'.weak, h'.fin, h'.newCalls, h'.frame, ?_, ?_, ?_, ?_, ?_⟩
      · intro p hf hall
        exact h'.unset p hf (fun x hx => hall x (List.mem_append_left _ hx))
      · intro x hx
        rcases List.mem_append.1 hx with hx | hx
        · exact h'.eqs x hx
        · simp at hx; subst hx; exact Or.inr (Or.inl ⟨o, hsrc⟩)
      · intro x hx
        rcases List.mem_append.1 hx with hx | hx
        · exact h'.depsSeen x hx
        · simp at hx; subst hx; exact hdep
      · simp only [true_iff]
        exact ⟨q, by simp, o, hsrc⟩
      · intro x hx
        rcases List.mem_append.1 hx with hx | hx
        · exact h'.defd x hx
        · simp at hx; subst hx; rw [hsrc]; simp

theorem loop_setters {H : Heap α σ} {w0 : σ} {R : NodeId → Prop}
    {rec : NodeId → Run α σ → Except Err (Run α σ)}
    (hrec : Spec H w0 R rec) {id : NodeId} {nd : PNode α σ} (hid : H[id]? = some nd)
    (hR : ∀ q ∈ nd.setters, ∀ d, q.2.src.dep = some d → R d) (hkeys : nd.setters.keys.Nodup)
    {r1 : Run α σ} (hs1 : r1.seen.get? nd.str = some id) :
    ∀ (rest done : List (Name × Setter α)) (r : Run α σ) (any : Bool) (res : Run α σ × Bool),
      done ++ rest = nd.setters → LInv H w0 R id nd r1 done r any →
      rest.foldlM (Heap.stepSetter H rec id nd) (r, any) = .ok res →
      LInv H w0 R id nd r1 nd.setters res.1 res.2 := by
  intro rest
  induction rest with
  | nil =>
    intro done r any res e h hf
    cases hf
    simp at e; subst e; exact h
  | cons q rest ih =>
    intro done r any res e h hf
    rw [List.foldlM_cons] at hf
    cases hst : Heap.stepSetter H rec id nd (r, any) q with
    | error er => rw [hst] at hf; cases hf
    | ok res1 =>
      rw [hst] at hf
      have hq : q ∈ nd.setters := by rw [← e]; simp
      have hqn : ∀ x ∈ done, x.1 ≠ q.1 := by
        intro x hx heq
        have : (done.map (·.1) ++ q.1 :: rest.map (·.1)).Nodup := by
          have h2 := hkeys
          rw [← e] at h2
          simpa [Dict.keys] using h2
        rw [List.nodup_append] at this
        exact this.2.2 x.1 (List.mem_map.2 ⟨x, hx, rfl⟩) q.1 (by simp) heq
      have h1 := step_setter hrec hid hR hs1 q hq hqn h res1 hst
      exact ih (done ++ [q]) res1.1 res1.2 res (by rw [← e]; simp) h1 hf

theorem compute_done {H : Heap α σ} (hG : GraphOK H) {w0 : σ} {R : NodeId → Prop} {id : NodeId}
    {nd : PNode α σ} (hid : H[id]? = some nd) {r0 r1 r r' : Run α σ}
    (hr1 : r1 = { r0 with seen := r0.seen.set nd.str id }) (hun : r0.seen.get? nd.str = none)
    (hinv0 : Inv H w0 R r0)
    (hs1 : r1.seen.get? nd.str = some id)
    (h : LInv H w0 R id nd r1 nd.setters r true) (hc : Heap.compute id nd r [] = .ok r') :
    Inv H w0 R r' ∧ Weak r r' ∧
      (∀ c ∈ r'.calls, c ∈ r.calls ∨ c.1 = id) ∧ r'.seen = r.seen ∧
      (∀ n p, n ≠ nd.str → look r'.gs n p = look r.gs n p) ∧ id ∈ r'.calls.map (·.1) ∧
      ∀ p ∈ nd.outputs, p ∈ fixedOf r'.gs nd.str ∨ ∀ o, EqL H r' id nd p (.computeOut o) := by
  have hmem : nd ∈ H := List.mem_of_getElem? hid
  have hout : nd.outputs ≠ [] := by
    obtain ⟨q, hq, o, ho⟩ := h.any.1 rfl
    intro he
    have := (hG.outs nd hmem q.1).2 ⟨q.2, o, hq, ho⟩
    rw [he] at this; simp at this
  unfold Heap.compute at hc
  split at hc
  · split at hc
    · cases hc
    · rename_i f hf
      simp only [bind, Except.bind] at hc
      cases hb : Heap.buildInputs nd r.gs [] with
      | error e => rw [hb] at hc; cases hc
      | ok args =>
        rw [hb] at hc
        simp only at hc
        rcases hcall : f r.world r.gs.numSamples args with ⟨w, res⟩
        rw [hcall] at hc
        cases res with
        | error e => cases hc
        | ok results =>
          simp only at hc
          have hwf : WF r.gs := h.inv.wf
          obtain ⟨a1, a2⟩ := saveResults_wrote nd
            { r with world := w, calls := r.calls ++ [(id, args, results)] } r' results hwf
            (hG.outsNodup nd hmem) hc
          have hsn : r.seen.get? nd.str = some id := h.weak.seen _ _ hs1
          obtain ⟨hargs1, hargs2⟩ := buildInputs_ok hb
          -- the intermediate run with the logged call
          let rm : Run α σ := { r with world := w, calls := r.calls ++ [(id, args, results)] }
          have hnotcalled : id ∉ r.calls.map (·.1) := by
            intro hm
            obtain ⟨c, hcm, hce⟩ := List.mem_map.1 hm
            rcases h.newCalls c hcm with h' | ⟨nd', e1, e2⟩
            · have h'' : c ∈ r0.calls := by rw [hr1] at h'; exact h'
              obtain ⟨nd', e1, e2, _⟩ := hinv0.callsOK c h''
              rw [hce, hid] at e1; cases e1
              rw [hun] at e2; cases e2
            · rw [hce, hid] at e1; cases e1
              rw [hs1] at e2; cases e2
          have hinvm : Inv H w0 R rm := by
            refine ⟨h.inv.wf, h.inv.seenOK, h.inv.reach, h.inv.stored, ?_, ?_, ?_⟩
            · intro c hcm
              rcases List.mem_append.1 hcm with hcm | hcm
              · exact h.inv.callsOK c hcm
              · simp at hcm; subst hcm
                exact ⟨nd, hid, hsn, hout⟩
            · have : rm.calls.map (·.1) = r.calls.map (·.1) ++ [id] := by simp [rm]
              rw [this, List.nodup_append]
              refine ⟨h.inv.callsNodup, by simp, ?_⟩
              intro a ha b hb e
              simp at hb; subst hb; subst e; exact hnotcalled ha
            · exact Thread.snoc h.inv.thread hid hf hcall
          have hkeysOut : ∀ p ∈ nd.outputs, p ∈ nd.setters.keys := by
            intro p hp
            obtain ⟨st, o, hm, _⟩ := (hG.outs nd hmem p).1 hp
            exact List.mem_map.2 ⟨(p, st), hm, rfl⟩
          have hnewm : ∀ p ∈ nd.outputs, p ∉ fixedOf rm.gs nd.str → look rm.gs nd.str p = none := by
            intro p hp hf
            apply h.unset p hf
            intro q hq hqp
            obtain ⟨st, o, hm, ho⟩ := (hG.outs nd hmem p).1 hp
            refine ⟨o, ?_⟩
            have e1 := Dict.get?_of_mem (hG.keys nd hmem) hm
            have e2 := Dict.get?_of_mem (hG.keys nd hmem) (k := q.1) (v := q.2) hq
            rw [hqp, e1] at e2
            cases e2; exact ho
          have hwm : Weak rm r' := a1.weak hnewm
          have hrm : Weak r rm := ⟨rfl, fun _ => rfl, fun _ _ _ h => h, fun _ _ h => h, [_], rfl⟩
          refine ⟨hinvm.wrote hid hsn hkeysOut a1, hrm.trans hwm, ?_, a1.seen, ?_, ?_, ?_⟩
          · intro c hcm
            rw [a1.calls] at hcm
            rcases List.mem_append.1 hcm with hcm | hcm
            · exact Or.inl hcm
            · simp at hcm; subst hcm; exact Or.inr rfl
          · intro n p hne
            exact a1.other n p (Or.inl hne)
          · rw [a1.calls]; simp
          · intro p hp
            rcases a2 p hp with e | ⟨u, w', e1, e2, e3⟩
            · left; rw [a1.fixed]; exact e
            · right
              intro o
              refine ⟨args, results, u, w', by rw [a1.calls]; simp, ⟨?_, hargs2⟩, e1,
                by rw [a1.num]; exact e2, e3⟩
              intro a ha
              obtain ⟨v, f1, f2⟩ := hargs1 a ha
              exact ⟨v, hwm.look _ _ _ f1, f2⟩
  · rename_i hnf
    have := hG.plain nd hmem (by simpa using hnf)
    exact absurd this hout

theorem sampleNode_spec {H : Heap α σ} (hG : GraphOK H) {w0 : σ} {R : NodeId → Prop}
    (hRc : ∀ id nd, R id → H[id]? = some nd → ∀ q ∈ nd.setters, ∀ d, q.2.src.dep = some d → R d) :
    ∀ fuel, Spec H w0 R (Heap.sampleNode H fuel) := by
  intro fuel
  induction fuel with
  | zero => intro id r r' _ _ h; cases h
  | succ fuel ih =>
    intro id r0 r' hRid hinv hcall
    unfold Heap.sampleNode at hcall
    cases hid : H[id]? with
    | none => rw [hid] at hcall; cases hcall
    | some nd =>
      rw [hid] at hcall
      simp only at hcall
      cases hseen : r0.seen.get? nd.str with
      | some j =>
        rw [hseen] at hcall
        simp only at hcall
        split at hcall
        · cases hcall
        · rename_i hj
          simp only [ne_eq, Classical.not_not] at hj
          cases hcall
          subst hj
          exact ⟨hinv, Done.refl H _, nd, rfl, hseen⟩
      | none =>
        rw [hseen] at hcall
        simp only [bind, Except.bind] at hcall
        let r1 : Run α σ := { r0 with seen := r0.seen.set nd.str id }
        have hmem : nd ∈ H := List.mem_of_getElem? hid
        have hs1 : r1.seen.get? nd.str = some id := by simp [r1]
        have hw01 : Weak r0 r1 := by
          refine ⟨rfl, fun _ => rfl, fun _ _ _ h => h, ?_, [], by simp [r1]⟩
          intro n i hi
          simp only [r1, Dict.get?_set]
          split
          · rename_i e; subst e; rw [hseen] at hi; cases hi
          · exact hi
        have hseen1 : ∀ n, r1.seen.get? n = none → r0.seen.get? n = none := by
          intro n hn
          cases h0 : r0.seen.get? n with
          | none => rfl
          | some i => rw [hw01.seen n i h0] at hn; cases hn
        have hinv1 : Inv H w0 R r1 := by
          refine ⟨hinv.wf, ?_, ?_, ?_, ?_, hinv.callsNodup, hinv.thread⟩
          · intro n i hi
            simp only [r1, Dict.get?_set] at hi
            split at hi
            · rename_i e; cases hi; subst e; exact ⟨nd, hid, rfl⟩
            · exact hinv.seenOK n i hi
          · intro n i hi
            simp only [r1, Dict.get?_set] at hi
            split at hi
            · cases hi; exact hRid
            · exact hinv.reach n i hi
          · intro n p v hl
            rcases hinv.stored n p v hl with e | ⟨i, nd', e1, e2⟩
            · exact Or.inl e
            · exact Or.inr ⟨i, nd', hw01.seen _ _ e1, e2⟩
          · intro c hc
            obtain ⟨nd', e1, e2, e3⟩ := hinv.callsOK c hc
            exact ⟨nd', e1, hw01.seen _ _ e2, e3⟩
        have hl0 : LInv H w0 R id nd r1 [] r1 false := by
          refine ⟨hinv1, Weak.refl _, ?_, fun c h => Or.inl h, fun _ _ _ _ _ => rfl, ?_, by simp, by simp, by simp, by simp⟩
          · intro n j h1 h2; rw [h1] at h2; cases h2
          · intro p hf _
            cases hl : look r1.gs nd.str p with
            | none => rfl
            | some v =>
              rcases hinv.stored nd.str p v hl with e | ⟨i, nd', e1, e2⟩
              · exact absurd e hf
              · rw [hseen] at e1; cases e1
        cases hfold : nd.setters.foldlM (Heap.stepSetter H (Heap.sampleNode H fuel) id nd) (r1, false) with
        | error e =>
          simp only [r1] at hfold
          rw [hfold] at hcall; cases hcall
        | ok res =>
          have hfold' := hfold
          simp only [r1] at hfold'
          rw [hfold'] at hcall
          simp only at hcall
          have hL := loop_setters ih hid (hRc id nd hRid hid) (hG.keys nd hmem) hs1 nd.setters [] r1 false res
            (by simp) hl0 hfold
          obtain ⟨r, any⟩ := res
          simp only at hL hcall
          have hsn : r.seen.get? nd.str = some id := hL.weak.seen _ _ hs1
          -- assemble
          have assemble : ∀ r2 : Run α σ, Inv H w0 R r2 → Weak r r2 →
              (∀ c ∈ r2.calls, c ∈ r.calls ∨ c.1 = id) → r2.seen = r.seen →
              (∀ n p, n ≠ nd.str → look r2.gs n p = look r.gs n p) →
              (nd.outputs ≠ [] → id ∈ r2.calls.map (·.1)) →
              (∀ q ∈ nd.setters, (∃ o, q.2.src = .computeOut o) → q.1 ∈ fixedOf r2.gs nd.str ∨
                EqL H r2 id nd q.1 q.2.src) →
              Inv H w0 R r2 ∧ Done H r0 r2 ∧ ∃ nd', some nd = some nd' ∧ r2.seen.get? nd'.str = some id := by
            intro r2 hi2 hw2 hcalls hs2 hfr hcalled hcomp
            refine ⟨hi2, ⟨hw01.trans (hL.weak.trans hw2), ?_, ?_, ?_⟩, nd, rfl, hw2.seen _ _ hsn⟩
            · intro n j hj hn0
              rw [hs2] at hj
              by_cases hn : n = nd.str
              · subst hn
                rw [hsn] at hj; cases hj
                refine ⟨nd, hid, ?_, ?_, hcalled, ?_⟩
                · intro q hq
                  rcases hL.eqs q hq with e | e | e
                  · left; rw [hw2.fixed]; exact e
                  · exact hcomp q hq e
                  · exact Or.inr (e.mono hw2)
                · intro q hq d hd
                  obtain ⟨dn, e1, e2⟩ := hL.depsSeen q hq d hd
                  exact ⟨dn, e1, hw2.seen _ _ e2⟩
                · exact hL.defd
              · have : r1.seen.get? n = none := by
                  simp only [r1, Dict.get?_set]; rw [if_neg (fun e => hn e.symm)]; exact hn0
                exact (hL.fin n j hj this).mono hw2
            · intro c hc
              rcases hcalls c hc with hc | hc
              · rcases hL.newCalls c hc with h | ⟨nd', e1, e2⟩
                · exact Or.inl h
                · exact Or.inr ⟨nd', e1, hseen1 _ e2⟩
              · right
                refine ⟨nd, ?_, hseen⟩
                rw [hc]; exact hid
            · intro n i hi p
              have hne : n ≠ nd.str := by rintro rfl; rw [hseen] at hi; cases hi
              rw [hfr n p hne, hL.frame n i (hw01.seen _ _ hi) hne]
          cases any with
          | true =>
            simp only [if_true] at hcall
            obtain ⟨c1, c2, c3, c4, c5, c6, c7⟩ := compute_done hG hid rfl hseen hinv hs1 hL hcall
            refine assemble r' c1 c2 c3 c4 c5 (fun _ => c6) ?_
            rintro q hq ⟨o, ho⟩
            rcases c7 q.1 ((hG.outs nd hmem q.1).2 ⟨q.2, o, hq, ho⟩) with e | e
            · exact Or.inl e
            · right; rw [ho]; exact e o
          | false =>
            simp only [Bool.false_eq_true, if_false] at hcall
            cases hcall
            have hno : ¬ ∃ q ∈ nd.setters, ∃ o, q.2.src = .computeOut o := by
              intro h; have := hL.any.2 h; cases this
            refine assemble r' hL.inv (Weak.refl _) (fun c h => Or.inl h) rfl (fun _ _ _ => rfl) ?_ ?_
            · intro ho
              exfalso
              cases hos : nd.outputs with
              | nil => exact ho hos
              | cons o os =>
                obtain ⟨st, o', hm, hsrc⟩ := (hG.outs nd hmem o).1 (by rw [hos]; simp)
                exact hno ⟨(o, st), hm, o', hsrc⟩
            · rintro q hq ⟨o, ho⟩
              exact absurd ⟨q, hq, o, ho⟩ hno

theorem sampleRoots_spec {H : Heap α σ} (hG : GraphOK H) {w0 : σ} {R : NodeId → Prop}
    (hRc : ∀ id nd, R id → H[id]? = some nd → ∀ q ∈ nd.setters, ∀ d, q.2.src.dep = some d → R d) :
    ∀ (roots : List NodeId) (r r' : Run α σ), (∀ a ∈ roots, R a) → Inv H w0 R r →
      Heap.sampleRoots H roots r = .ok r' →
      Inv H w0 R r' ∧ Done H r r' ∧ ∀ a ∈ roots, ∃ nd, H[a]? = some nd ∧ r'.seen.get? nd.str = some a := by
  intro roots
  induction roots with
  | nil => intro r r' _ hi h; cases h; exact ⟨hi, Done.refl H _, by simp⟩
  | cons a roots ih =>
    intro r r' hR hi h
    unfold Heap.sampleRoots at h
    rw [List.foldlM_cons] at h
    cases h1 : Heap.sampleNode H (H.length + 1) a r with
    | error e => rw [h1] at h; cases h
    | ok r1 =>
      rw [h1] at h
      obtain ⟨a1, a2, nd, a3, a4⟩ := sampleNode_spec hG hRc (H.length + 1) a r r1 (hR a (by simp)) hi h1
      obtain ⟨b1, b2, b3⟩ := ih r1 r' (fun x hx => hR x (List.mem_cons_of_mem _ hx)) a1 h
      refine ⟨b1, a2.trans b2, ?_⟩
      intro x hx
      rcases List.mem_cons.1 hx with rfl | hx
      · exact ⟨nd, a3, b2.weak.seen _ _ a4⟩
      · exact b3 x hx

end LCL.NodeLemmas
