import Verif.Lemmas.GraphHeap

/-!
# Properties C128 and C129: copies and arrays
-/

namespace LCL.GraphHeapProps
open LCL LCL.GraphHeap LCL.GraphHeapSpec

variable {α : Type}

/-! ### What one statement can change -/

/-- The objects of `S` are out of reach of the states, variables and nodes of the given numbers. -/
structure Apart (W : World α) (S okS okV okN : Nat → Prop) : Prop where
  states : ∀ i s, W.states[i]? = some s → okS i → ∀ w, Holds s w → ∀ r ∈ w.refs, ¬ S r
  vars : ∀ x v, W.vars[x]? = some v → okV x → ∀ r ∈ v.refs, ¬ S r
  nodes : ∀ g nd, W.nodes[g]? = some nd → okN g → ¬ S nd.ref
  bound : ∀ r, S r → r < W.heap.length
  laterS : ∀ i, W.states.length ≤ i → okS i
  laterV : ∀ i, W.vars.length ≤ i → okV i
  laterN : ∀ i, W.nodes.length ≤ i → okN i

/-- The statement names only the given states, variables and nodes. -/
def Uses (op : Op α) (okS okV okN : Nat → Prop) : Prop := (∀ i ∈ namesStates op, okS i) ∧ (∀ x ∈ namesVars op, okV x) ∧ ∀ g ∈ namesNodes op, okN g

/-- The objects of `S`, the other states and the other nodes are as before. -/
def Kept (W W' : World α) (S okS okN : Nat → Prop) : Prop :=
  (∀ r, S r → W'.heap[r]? = W.heap[r]?) ∧ (∀ i, ¬ okS i → W'.states[i]? = W.states[i]?) ∧ ∀ g, ¬ okN g → W'.nodes[g]? = W.nodes[g]?

section
variable {W : World α} {S okS okV okN : Nat → Prop}

theorem Kept.refl (W : World α) : Kept W W S okS okN := ⟨fun _ _ => rfl, fun _ _ => rfl, fun _ _ => rfl⟩

theorem Kept.trans {W1 W2 : World α} (a : Kept W W1 S okS okN) (b : Kept W1 W2 S okS okN) : Kept W W2 S okS okN :=
  ⟨fun r h => (b.1 r h).trans (a.1 r h), fun i h => (b.2.1 i h).trans (a.2.1 i h), fun g h => (b.2.2 g h).trans (a.2.2 g h)⟩

theorem Apart.fresh (A : Apart W S okS okV okN) {h' : Heap α} {w : HVal α} (f : Fresh W.heap h' w) : ∀ r ∈ w.refs, ¬ S r := fun r hr hS => by
  have := A.bound r hS
  have := (f r hr).1
  omega

theorem Apart.grow (A : Apart W S okS okV okN) {h' : Heap α} (g : Grows W.heap h') : Apart { W with heap := h' } S okS okV okN ∧ Kept W { W with heap := h' } S okS okN :=
  ⟨⟨A.states, A.vars, A.nodes, fun r hr => Nat.lt_of_lt_of_le (A.bound r hr) g.le, A.laterS, A.laterV, A.laterN⟩,
   fun r hr => g.get (A.bound r hr), fun _ _ => rfl, fun _ _ => rfl⟩

theorem Apart.addVar (A : Apart W S okS okV okN) {v : HVal α} (hv : ∀ r ∈ v.refs, ¬ S r) :
    Apart { W with vars := W.vars ++ [v] } S okS okV okN ∧ Kept W { W with vars := W.vars ++ [v] } S okS okN := by
  refine ⟨⟨A.states, ?_, A.nodes, A.bound, A.laterS, ?_, A.laterN⟩, fun _ _ => rfl, fun _ _ => rfl, fun _ _ => rfl⟩
  · intro x v' hx ho
    by_cases hlt : x < W.vars.length
    · rw [List.getElem?_append_left hlt] at hx
      exact A.vars x v' hx ho
    · rw [List.getElem?_append_right (by omega)] at hx
      have := List.mem_of_getElem? hx
      rw [List.mem_singleton] at this
      subst this
      exact hv
  · intro i hi
    rw [List.length_append] at hi
    exact A.laterV i (by omega)

theorem Apart.addState (A : Apart W S okS okV okN) {s : HState α} (hs : ∀ w, Holds s w → ∀ r ∈ w.refs, ¬ S r) :
    Apart { W with states := W.states ++ [s] } S okS okV okN ∧ Kept W { W with states := W.states ++ [s] } S okS okN := by
  refine ⟨⟨?_, A.vars, A.nodes, A.bound, ?_, A.laterV, A.laterN⟩, fun _ _ => rfl, ?_, fun _ _ => rfl⟩
  · intro x v' hx ho
    by_cases hlt : x < W.states.length
    · rw [List.getElem?_append_left hlt] at hx
      exact A.states x v' hx ho
    · rw [List.getElem?_append_right (by omega)] at hx
      have := List.mem_of_getElem? hx
      rw [List.mem_singleton] at this
      subst this
      exact hs
  · intro i hi
    rw [List.length_append] at hi
    exact A.laterS i (by omega)
  · intro i hi
    have : i < W.states.length := (Nat.lt_or_ge i W.states.length).resolve_right fun h => hi (A.laterS i h)
    exact List.getElem?_append_left this

theorem Apart.addNode (A : Apart W S okS okV okN) {nd : Given} (hn : ¬ S nd.ref) :
    Apart { W with nodes := W.nodes ++ [nd] } S okS okV okN ∧ Kept W { W with nodes := W.nodes ++ [nd] } S okS okN := by
  refine ⟨⟨A.states, A.vars, ?_, A.bound, A.laterS, A.laterV, ?_⟩, fun _ _ => rfl, fun _ _ => rfl, ?_⟩
  · intro x v' hx ho
    by_cases hlt : x < W.nodes.length
    · rw [List.getElem?_append_left hlt] at hx
      exact A.nodes x v' hx ho
    · rw [List.getElem?_append_right (by omega)] at hx
      have := List.mem_of_getElem? hx
      rw [List.mem_singleton] at this
      subst this
      exact hn
  · intro i hi
    rw [List.length_append] at hi
    exact A.laterN i (by omega)
  · intro i hi
    have : i < W.nodes.length := (Nat.lt_or_ge i W.nodes.length).resolve_right fun h => hi (A.laterN i h)
    exact List.getElem?_append_left this

theorem Apart.setState (A : Apart W S okS okV okN) {i : Nat} (ho : okS i) {s : HState α} (hs : ∀ w, Holds s w → ∀ r ∈ w.refs, ¬ S r) :
    Apart { W with states := W.states.set i s } S okS okV okN ∧ Kept W { W with states := W.states.set i s } S okS okN := by
  refine ⟨⟨?_, A.vars, A.nodes, A.bound, ?_, A.laterV, A.laterN⟩, fun _ _ => rfl, ?_, fun _ _ => rfl⟩
  · intro j s' hj hoj
    rw [List.getElem?_set] at hj
    split at hj
    · split at hj
      · cases hj; exact hs
      · cases hj
    · exact A.states j s' hj hoj
  · intro j hj
    rw [List.length_set] at hj
    exact A.laterS j hj
  · intro j hj
    rw [List.getElem?_set_ne]
    rintro rfl
    exact hj ho

theorem Apart.setNode (A : Apart W S okS okV okN) {i : Nat} (ho : okN i) {nd : Given} (hn : ¬ S nd.ref) :
    Apart { W with nodes := W.nodes.set i nd } S okS okV okN ∧ Kept W { W with nodes := W.nodes.set i nd } S okS okN := by
  refine ⟨⟨A.states, A.vars, ?_, A.bound, A.laterS, A.laterV, ?_⟩, fun _ _ => rfl, fun _ _ => rfl, ?_⟩
  · intro j s' hj hoj
    rw [List.getElem?_set] at hj
    split at hj
    · split at hj
      · cases hj; exact hn
      · cases hj
    · exact A.nodes j s' hj hoj
  · intro j hj
    rw [List.length_set] at hj
    exact A.laterN j hj
  · intro j hj
    rw [List.getElem?_set_ne]
    rintro rfl
    exact hj ho

/-- An operation on one state. -/
theorem Apart.put (A : Apart W S okS okV okN) {i : Nat} (ho : okS i) {r : Heap α × HState α × Option Err} (g : Grows W.heap r.1)
    (hs : ∀ w, Holds r.2.1 w → ∀ r ∈ w.refs, ¬ S r) : Apart (W.put i r).1 S okS okV okN ∧ Kept W (W.put i r).1 S okS okN := by
  obtain ⟨a, b⟩ := A.grow g
  obtain ⟨c, d⟩ := a.setState ho hs
  exact ⟨c, b.trans d⟩

theorem getElem?_writeCell {h : Heap α} {r k r' : Nat} {a : α} (hne : r ≠ r') : (writeCell h r k a)[r']? = h[r']? := by
  unfold writeCell
  rw [List.getElem?_set_ne hne]

theorem length_write (h : Heap α) (v : HVal α) (k : Nat) (a : α) : (write h v k a).1.length = h.length := by
  cases v with
  | none => rfl
  | scalar a => rfl
  | arr r s l =>
    unfold write
    dsimp only
    split
    · simp [writeCell]
    · rfl
  | list r =>
    unfold write
    dsimp only
    split
    · simp [writeCell]
    · rfl

theorem write_other {h : Heap α} {v : HVal α} {k : Nat} {a : α} {r : Nat} (hr : r ∉ v.refs) : (write h v k a).1[r]? = h[r]? := by
  cases v with
  | none => rfl
  | scalar a => rfl
  | arr r' s l =>
    unfold write
    dsimp only
    split
    · exact getElem?_writeCell fun e => hr (by simp [HVal.refs, e])
    · rfl
  | list r' =>
    unfold write
    dsimp only
    split
    · exact getElem?_writeCell fun e => hr (by simp [HVal.refs, e])
    · rfl

theorem lookup_holds {s : HState α} {node var : Name} {v : HVal α} (h : lookup s node var = some v) : Holds s v := by
  unfold lookup at h
  cases e : s.states.get? node with
  | none => rw [e] at h; cases h
  | some d =>
    rw [e] at h
    exact ⟨_, Dict.mem_of_get? e, _, Dict.mem_of_get? h, rfl⟩

theorem giveNext_spec {h : Heap α} {nd nd' : Given} {n : Nat} {v : HVal α} (e : giveNext h nd n = .ok (nd', v)) :
    nd'.ref = nd.ref ∧ nd'.start = nd.start ∧ nd'.len = nd.len ∧ ∀ r ∈ v.refs, r = nd.ref := by
  unfold giveNext at e
  split at e
  · split at e <;> cases e
    exact ⟨rfl, rfl, rfl, by intro r hr; cases hr⟩
  · split at e <;> cases e
    exact ⟨rfl, rfl, rfl, by intro r hr; simpa [HVal.refs] using hr⟩

/-- One statement that names none of the others leaves them, and what they refer to, alone. -/
theorem step_kept (A : Apart W S okS okV okN) (op : Op α) (u : Uses op okS okV okN) : Apart (step W op).1 S okS okV okN ∧ Kept W (step W op).1 S okS okN := by
  obtain ⟨uS, uV, uN⟩ := u
  cases op with
  | array l =>
    obtain ⟨a, b⟩ := A.grow (Grows.append W.heap [l])
    obtain ⟨c, d⟩ := a.addVar (v := (alloc W.heap l).2) (A.fresh (fresh_alloc W.heap l))
    exact ⟨c, b.trans d⟩
  | list l =>
    obtain ⟨a, b⟩ := A.grow (Grows.append W.heap [l])
    obtain ⟨c, d⟩ := a.addVar (v := .list W.heap.length) (by
      intro r hr hS
      simp only [HVal.refs, List.mem_singleton] at hr
      have := A.bound r hS
      omega)
    exact ⟨c, b.trans d⟩
  | num a => exact A.addVar (by intro r hr; cases hr)
  | write x k a =>
    unfold step
    dsimp only
    split
    · exact ⟨A, Kept.refl _⟩
    · rename_i v hx
      have hv := A.vars x v hx (uV x (by simp [namesVars]))
      refine ⟨⟨A.states, A.vars, A.nodes, ?_, A.laterS, A.laterV, A.laterN⟩, ?_, fun _ _ => rfl, fun _ _ => rfl⟩
      · intro r hr
        show r < (write W.heap v k a).1.length
        rw [length_write]
        exact A.bound r hr
      · intro r hr
        exact write_other fun hc => hv r hc hr
  | new n =>
    unfold step
    dsimp only
    split
    · exact ⟨A, Kept.refl _⟩
    · refine A.addState ?_
      rintro w ⟨q, hq, -⟩
      cases hq
  | set i node var x force fixed =>
    unfold step
    dsimp only
    split
    · rename_i s v hi hx
      have h1 := set_spec W.heap s node var v force fixed
      refine A.put (uS i (by simp [namesStates])) h1.1 ?_
      intro w hw
      rcases h1.2 w hw with a | a | a
      · exact A.states i s hi (uS i (by simp [namesStates])) w a
      · rw [a]; exact A.vars x v hx (uV x (by simp [namesVars]))
      · exact A.fresh a
    · exact ⟨A, Kept.refl _⟩
  | copy i =>
    unfold step
    dsimp only
    split
    · exact ⟨A, Kept.refl _⟩
    · rename_i s hi
      have h1 := copy_spec W.heap s
      obtain ⟨a, b⟩ := A.grow h1.1
      obtain ⟨c, d⟩ := a.addState (s := (copy W.heap s).2) (by
        intro w hw
        rcases h1.2 w hw with e | e
        · exact A.states i s hi (uS i (by simp [namesStates])) w e
        · exact A.fresh e)
      exact ⟨c, b.trans d⟩
  | sample i k =>
    unfold step
    dsimp only
    split
    · exact ⟨A, Kept.refl _⟩
    · rename_i s hi
      split
      · exact ⟨A, Kept.refl _⟩
      · rename_i s' e
        refine A.addState ?_
        intro w hw r hr
        rcases (extract_spec e).1 w hw with h | h
        · exact A.states i s hi (uS i (by simp [namesStates])) w h r hr
        · rw [h] at hr; cases hr
  | update i j force fixed =>
    unfold step
    dsimp only
    split
    · rename_i s g hi hj
      have h1 := update_spec W.heap s g force fixed
      refine A.put (uS i (by simp [namesStates])) h1.1 ?_
      intro w hw
      rcases h1.2 w hw with a | a | a
      · exact A.states i s hi (uS i (by simp [namesStates])) w a
      · exact A.states j g hj (uS j (by simp [namesStates])) w a
      · exact A.fresh a
    · exact ⟨A, Kept.refl _⟩
  | get i node var =>
    unfold step
    dsimp only
    split
    · exact ⟨A, Kept.refl _⟩
    · rename_i s hi
      split
      · exact ⟨A, Kept.refl _⟩
      · rename_i v hv
        exact A.addVar (A.states i s hi (uS i (by simp [namesStates])) v (lookup_holds hv))
  | assign i node var x =>
    unfold step
    dsimp only
    split
    · rename_i s v hi hx
      split
      · exact ⟨A, Kept.refl _⟩
      · rename_i d hd
        refine A.setState (uS i (by simp [namesStates])) ?_
        rintro w ⟨q, hq, p, hp, rfl⟩
        rcases mem_set hq with hq | hq
        · exact A.states i s hi (uS i (by simp [namesStates])) _ ⟨q, hq, p, hp, rfl⟩
        · rw [hq] at hp
          rcases mem_set hp with hp | hp
          · exact A.states i s hi (uS i (by simp [namesStates])) _ ⟨_, Dict.mem_of_get? hd, p, hp, rfl⟩
          · rw [hp]; exact A.vars x v hx (uV x (by simp [namesVars]))
    · exact ⟨A, Kept.refl _⟩
  | given x =>
    unfold step
    dsimp only
    split
    · exact ⟨A, Kept.refl _⟩
    · rename_i v hx
      have hv := A.vars x v hx (uV x (by simp [namesVars]))
      cases v with
      | none => exact ⟨A, Kept.refl _⟩
      | scalar a => exact ⟨A, Kept.refl _⟩
      | arr r s l =>
        by_cases h0 : (W.heap.view r s l).length = 0
        · simp only [makeGiven, h0, if_true]; exact ⟨A, Kept.refl _⟩
        · simp only [makeGiven, h0, if_false]
          exact A.addNode (hv r (by simp [HVal.refs]))
      | list r =>
        have gA := A.grow (Grows.append W.heap [W.heap.cells r])
        by_cases h0 : (W.heap.cells r).length = 0
        · simp only [makeGiven, h0, if_true]; exact gA
        · simp only [makeGiven, h0, if_false]
          obtain ⟨c, d⟩ := gA.1.addNode (nd := ⟨W.heap.length, 0, (W.heap.cells r).length, 0⟩) (fun hS => by have := A.bound _ hS; dsimp only at this; omega)
          exact ⟨c, gA.2.trans d⟩
  | compute g i node var =>
    unfold step
    dsimp only
    split
    · rename_i nd s hg hi
      split
      · exact ⟨A, Kept.refl _⟩
      · rename_i nd' v e
        obtain ⟨e1, -, -, e2⟩ := giveNext_spec e
        have hnd := A.nodes g nd hg (uN g (by simp [namesNodes]))
        obtain ⟨a, b⟩ := A.setNode (uN g (by simp [namesNodes])) (nd := nd') (by rw [e1]; exact hnd)
        have h1 := set_spec W.heap s node var v false false
        obtain ⟨c, d⟩ := a.put (uS i (by simp [namesStates])) (r := set W.heap s node var v false false) h1.1 (by
          intro w hw r hr
          rcases h1.2 w hw with x | x | x
          · exact A.states i s hi (uS i (by simp [namesStates])) w x r hr
          · rw [x] at hr; rw [e2 r hr]; exact hnd
          · exact A.fresh x r hr)
        exact ⟨c, b.trans d⟩
    · exact ⟨A, Kept.refl _⟩
  | reset g =>
    unfold step
    dsimp only
    split
    · exact ⟨A, Kept.refl _⟩
    · rename_i nd hg
      exact A.setNode (uN g (by simp [namesNodes])) (A.nodes g nd hg (uN g (by simp [namesNodes])))

theorem run_kept : ∀ (ops : List (Op α)) {W : World α}, Apart W S okS okV okN → (∀ op ∈ ops, Uses op okS okV okN) → Kept W (run W ops) S okS okN
  | [], W, _, _ => Kept.refl _
  | op :: rest, W, A, u => by
    obtain ⟨a, b⟩ := step_kept A op (u op List.mem_cons_self)
    exact b.trans (run_kept rest a fun o ho => u o (List.mem_cons_of_mem _ ho))

/-- A state that is not named and whose objects are out of reach shows what it showed. -/
theorem Kept.seen {W' : World α} (K : Kept W W' S okS okN) {i : Nat} (hi : ¬ okS i) (hS : ∀ s, W.states[i]? = some s → ∀ w, Holds s w → ∀ r ∈ w.refs, S r) :
    seen W' i = seen W i := by
  unfold GraphHeapSpec.seen
  rw [K.2.1 i hi]
  cases e : W.states[i]? with
  | none => rfl
  | some s => exact congrArg some (seenState_congr fun v hv r hr => K.1 r (hS s e v hv r hr))

end

/-! ### Memories programs reach -/

/-- Every reference is to an existing object. -/
structure Sound (W : World α) : Prop where
  states : ∀ s ∈ W.states, StateBelow W.heap.length s
  vars : ∀ v ∈ W.vars, Below W.heap.length v
  nodes : ∀ nd ∈ W.nodes, nd.ref < W.heap.length

/-- Nothing refers to an object that does not exist: the instance of `Apart` in which nothing is out of reach but what does not exist, as far as one statement. -/
theorem step_sound {W : World α} (H : Sound W) (op : Op α) : Sound (step W op).1 := by
  have up : ∀ {h' : Heap α}, W.heap.length ≤ h'.length → (∀ s ∈ W.states, StateBelow h'.length s) ∧ (∀ v ∈ W.vars, Below h'.length v) ∧ ∀ nd ∈ W.nodes, nd.ref < h'.length := by
    intro h' g
    exact ⟨fun s hs w hw => (H.states s hs w hw).mono g, fun v hv => (H.vars v hv).mono g, fun nd hn => Nat.lt_of_lt_of_le (H.nodes nd hn) g⟩
  have addS : ∀ {h' : Heap α} {s : HState α}, W.heap.length ≤ h'.length → StateBelow h'.length s → Sound { W with heap := h', states := W.states ++ [s] } := by
    intro h' s g b
    obtain ⟨u1, u2, u3⟩ := up g
    refine ⟨fun s' hs' => ?_, u2, u3⟩
    rcases List.mem_append.1 hs' with h | h
    · exact u1 s' h
    · rw [List.mem_singleton] at h; rw [h]; exact b
  have addV : ∀ {h' : Heap α} {v : HVal α}, W.heap.length ≤ h'.length → Below h'.length v → Sound { W with heap := h', vars := W.vars ++ [v] } := by
    intro h' v g b
    obtain ⟨u1, u2, u3⟩ := up g
    refine ⟨u1, fun v' hv' => ?_, u3⟩
    rcases List.mem_append.1 hv' with h | h
    · exact u2 v' h
    · rw [List.mem_singleton] at h; rw [h]; exact b
  have addN : ∀ {h' : Heap α} {nd : Given}, W.heap.length ≤ h'.length → nd.ref < h'.length → Sound { W with heap := h', nodes := W.nodes ++ [nd] } := by
    intro h' v g b
    obtain ⟨u1, u2, u3⟩ := up g
    refine ⟨u1, u2, fun v' hv' => ?_⟩
    rcases List.mem_append.1 hv' with h | h
    · exact u3 v' h
    · rw [List.mem_singleton] at h; rw [h]; exact b
  have setS : ∀ {h' : Heap α} {s : HState α} (i : Nat) (nodes : List Given), (∀ nd ∈ nodes, nd.ref < W.heap.length) → W.heap.length ≤ h'.length → StateBelow h'.length s →
      Sound { W with heap := h', states := W.states.set i s, nodes := nodes } := by
    intro h' s i nodes hn g b
    obtain ⟨u1, u2, u3⟩ := up g
    refine ⟨fun s' hs' => ?_, u2, fun nd h => Nat.lt_of_lt_of_le (hn nd h) g⟩
    rcases List.mem_or_eq_of_mem_set hs' with h | h
    · exact u1 s' h
    · rw [h]; exact b
  have hset : ∀ {s : HState α} {v : HVal α} (node var : Name) (force fixed : Bool), s ∈ W.states → Below W.heap.length v →
      StateBelow (set W.heap s node var v force fixed).1.length (set W.heap s node var v force fixed).2.1 := by
    intro s v node var force fixed hs hv w hw
    have h1 := set_spec W.heap s node var v force fixed
    rcases h1.2 w hw with a | a | a
    · exact (H.states s hs w a).mono h1.1.le
    · rw [a]; exact hv.mono h1.1.le
    · exact a.below
  cases op with
  | array l => exact addV (Grows.append W.heap [l]).le (fresh_alloc W.heap l).below
  | list l =>
    refine addV (Grows.append W.heap [l]).le ?_
    intro r hr
    simp only [HVal.refs, List.mem_singleton] at hr
    subst hr; simp
  | num a => exact addV (Nat.le_refl _) (by intro r hr; cases hr)
  | write x k a =>
    unfold step
    dsimp only
    split
    · exact H
    · have e := length_write W.heap ‹HVal α› k a
      exact ⟨fun s hs => by show StateBelow (write _ _ _ _).1.length _; rw [e]; exact H.states s hs,
        fun s hs => by show Below (write _ _ _ _).1.length _; rw [e]; exact H.vars s hs,
        fun s hs => by show _ < (write _ _ _ _).1.length; rw [e]; exact H.nodes s hs⟩
  | new n =>
    unfold step
    dsimp only
    split
    · exact H
    · exact addS (Nat.le_refl _) (by rintro w ⟨q, hq, -⟩; cases hq)
  | set i node var x force fixed =>
    unfold step
    dsimp only
    split
    · rename_i s v hi hx
      exact setS i W.nodes H.nodes (set_spec W.heap s node var v force fixed).1.le (hset node var force fixed (List.mem_of_getElem? hi) (H.vars v (List.mem_of_getElem? hx)))
    · exact H
  | copy i =>
    unfold step
    dsimp only
    split
    · exact H
    · rename_i s hi
      have h1 := copy_spec W.heap s
      refine addS h1.1.le ?_
      intro w hw
      rcases h1.2 w hw with a | a
      · exact (H.states s (List.mem_of_getElem? hi) w a).mono h1.1.le
      · exact a.below
  | sample i k =>
    unfold step
    dsimp only
    split
    · exact H
    · rename_i s hi
      split
      · exact H
      · rename_i s' e
        refine addS (Nat.le_refl _) ?_
        intro w hw
        rcases (extract_spec e).1 w hw with h | h
        · exact H.states s (List.mem_of_getElem? hi) w h
        · intro r hr; rw [h] at hr; cases hr
  | update i j force fixed =>
    unfold step
    dsimp only
    split
    · rename_i s g hi hj
      have h1 := update_spec W.heap s g force fixed
      refine setS i W.nodes H.nodes h1.1.le ?_
      intro w hw
      rcases h1.2 w hw with a | a | a
      · exact (H.states s (List.mem_of_getElem? hi) w a).mono h1.1.le
      · exact (H.states g (List.mem_of_getElem? hj) w a).mono h1.1.le
      · exact a.below
    · exact H
  | get i node var =>
    unfold step
    dsimp only
    split
    · exact H
    · rename_i s hi
      split
      · exact H
      · rename_i v hv
        exact addV (Nat.le_refl _) (H.states s (List.mem_of_getElem? hi) v (lookup_holds hv))
  | assign i node var x =>
    unfold step
    dsimp only
    split
    · rename_i s v hi hx
      split
      · exact H
      · rename_i d hd
        refine setS i W.nodes H.nodes (Nat.le_refl _) ?_
        rintro w ⟨q, hq, p, hp, rfl⟩
        rcases mem_set hq with hq | hq
        · exact H.states s (List.mem_of_getElem? hi) _ ⟨q, hq, p, hp, rfl⟩
        · rw [hq] at hp
          rcases mem_set hp with hp | hp
          · exact H.states s (List.mem_of_getElem? hi) _ ⟨_, Dict.mem_of_get? hd, p, hp, rfl⟩
          · rw [hp]; exact H.vars v (List.mem_of_getElem? hx)
    · exact H
  | given x =>
    unfold step
    dsimp only
    split
    · exact H
    · rename_i v hx
      have hv := H.vars v (List.mem_of_getElem? hx)
      cases v with
      | none => exact H
      | scalar a => exact H
      | arr r s l =>
        by_cases h0 : (W.heap.view r s l).length = 0
        · simp only [makeGiven, h0, if_true]; exact H
        · simp only [makeGiven, h0, if_false]
          exact addN (Nat.le_refl _) (hv r (by simp [HVal.refs]))
      | list r =>
        have g := (Grows.append W.heap [W.heap.cells r]).le
        by_cases h0 : (W.heap.cells r).length = 0
        · simp only [makeGiven, h0, if_true]; exact ⟨(up g).1, (up g).2.1, (up g).2.2⟩
        · simp only [makeGiven, h0, if_false]
          exact addN g (by simp)
  | compute g i node var =>
    unfold step
    dsimp only
    split
    · rename_i nd s hg hi
      split
      · exact H
      · rename_i nd' v e
        obtain ⟨e1, -, -, e2⟩ := giveNext_spec e
        have hnd := H.nodes nd (List.mem_of_getElem? hg)
        refine setS i (W.nodes.set g nd') ?_ (set_spec W.heap s node var v false false).1.le
          (hset node var false false (List.mem_of_getElem? hi) (fun r hr => by rw [e2 r hr]; exact hnd))
        intro n hn
        rcases List.mem_or_eq_of_mem_set hn with h | h
        · exact H.nodes n h
        · rw [h, e1]; exact hnd
    · exact H
  | reset g =>
    unfold step
    dsimp only
    split
    · exact H
    · rename_i nd hg
      refine ⟨H.states, H.vars, fun n hn => ?_⟩
      rcases List.mem_or_eq_of_mem_set hn with h | h
      · exact H.nodes n h
      · rw [h]; exact H.nodes nd (List.mem_of_getElem? hg)

theorem run_sound : ∀ (ops : List (Op α)) {W : World α}, Sound W → Sound (run W ops)
  | [], _, H => H
  | op :: rest, _, H => run_sound rest (step_sound H op)

theorem reachable_sound {W : World α} (h : Reachable W) : Sound W := by
  obtain ⟨ops, rfl⟩ := h
  exact run_sound ops ⟨by simp [start], by simp [start], by simp [start]⟩

/-! ### The value model is what is seen -/

theorem get?_map {κ ν μ : Type} [DecidableEq κ] (f : ν → μ) (k : κ) : ∀ d : Dict κ ν, Dict.get? (d.map fun q => (q.1, f q.2)) k = (d.get? k).map f
  | [] => rfl
  | (a, b) :: d => by
    rw [List.map_cons, Dict.get?_cons, Dict.get?_cons, get?_map f k d]
    split <;> rfl

theorem set_map {κ ν μ : Type} [DecidableEq κ] (f : ν → μ) (k : κ) (v : ν) : ∀ d : Dict κ ν, (Dict.set d k v).map (fun q => (q.1, f q.2)) = Dict.set (d.map fun q => (q.1, f q.2)) k (f v)
  | [] => rfl
  | (a, b) :: d => by
    unfold Dict.set
    rw [List.map_cons]
    dsimp only
    split
    · rfl
    · rw [List.map_cons, set_map f k v d]

theorem has_map {κ ν μ : Type} [DecidableEq κ] (f : ν → μ) (k : κ) (d : Dict κ ν) : Dict.has (d.map fun q => (q.1, f q.2)) k = d.has k := by
  unfold Dict.has
  rw [get?_map]
  cases d.get? k <;> rfl

/-- What the parameters of a node show. -/
def shownVars (h : Heap α) (d : Dict Name (HVal α)) : Dict Name (Val α) := d.map fun p => (p.1, shown h p.2)

theorem seenState_states (h : Heap α) (s : HState α) : (seenState h s).states = s.states.map fun q => (q.1, shownVars h q.2) := rfl

theorem register_seen (h : Heap α) (s : HState α) (node : Name) : seenState h (register s node) = (seenState h s).register node := by
  unfold register GState.register
  rw [seenState_states, has_map]
  split
  · rfl
  · unfold seenState
    dsimp only
    rw [show ([] : Dict Name (Val α)) = shownVars h [] from rfl]
    congr 1
    exact set_map (shownVars h) node [] s.states

theorem get_seen (h : Heap α) (s : HState α) (node : Name) : ((seenState h s).states.get? node).getD [] = shownVars h ((s.states.get? node).getD []) := by
  rw [seenState_states, get?_map]
  cases s.states.get? node <;> rfl

theorem countVar_seen (h : Heap α) (s : HState α) (node var : Name) : seenState h (countVar s node var) = (seenState h s).countVar node var := by
  unfold countVar GState.countVar
  rw [get_seen, shownVars, has_map]
  split <;> rfl

/-- What is stored, as it is shown. -/
def shownResult : Except Err (Heap α × HVal α) → Except Err (Val α)
  | .error e => .error e
  | .ok q => .ok (shown q.1 q.2)

theorem normalise_seen (h : Heap α) (n : Nat) (v : HVal α) (force : Bool) : GState.normalise n (shown h v) = shownResult (normalise h n v force) := by
  unfold normalise GState.normalise
  split
  · rfl
  · cases v with
    | none => rfl
    | scalar a =>
      show Except.ok (Val.arr (List.replicate n (Val.scalar a))) = Except.ok (shown (alloc h (List.replicate n a)).1 (alloc h (List.replicate n a)).2)
      rw [shown_alloc, List.map_replicate]
    | arr r s l =>
      show (if ((h.view r s l).map Val.scalar).length ≠ n then _ else _) = _
      rw [List.length_map]
      dsimp only
      split
      · rfl
      · cases force
        · rfl
        · show Except.ok (Val.arr ((h.view r s l).map Val.scalar)) = Except.ok (shown (alloc h (h.view r s l)).1 (alloc h (h.view r s l)).2)
          rw [shown_alloc]
    | list r =>
      show (if ((h.cells r).map Val.scalar).length ≠ n then _ else _) = _
      rw [List.length_map]
      dsimp only
      split
      · rfl
      · show Except.ok (Val.arr ((h.cells r).map Val.scalar)) = Except.ok (shown (alloc h (h.cells r)).1 (alloc h (h.cells r)).2)
        rw [shown_alloc]

theorem seenState_grows {h h' : Heap α} (g : Grows h h') {s : HState α} (b : StateBelow h.length s) : seenState h' s = seenState h s :=
  seenState_congr fun v hv r hr => g.get (b v hv r hr)

theorem set_seen {h : Heap α} {s : HState α} (b : StateBelow h.length s) (node var : Name) (v : HVal α) (force fixed : Bool) :
    seenState (set h s node var v force fixed).1 (set h s node var v force fixed).2.1 = ((seenState h s).set node var (shown h v) fixed).1 ∧
    (set h s node var v force fixed).2.2 = ((seenState h s).set node var (shown h v) fixed).2 := by
  unfold GraphHeap.set GState.set
  split
  · exact ⟨rfl, rfl⟩
  · dsimp only
    rw [← register_seen, ← countVar_seen]
    have hb2 : StateBelow h.length (countVar (register s node) node var) := by
      rintro w ⟨q, hq, p, hp, e⟩
      rw [countVar_states] at hq
      exact b w (holds_register ⟨q, hq, p, hp, e⟩)
    have hfix : (seenState h (countVar (register s node) node var)).fixed = (countVar (register s node) node var).fixed := rfl
    have hnum : (seenState h (countVar (register s node) node var)).numSamples = (countVar (register s node) node var).numSamples := rfl
    rw [hfix, hnum, normalise_seen h _ v force]
    cases hf : (countVar (register s node) node var).fixed.get? node with
    | none => exact ⟨rfl, rfl⟩
    | some fx =>
      dsimp only
      by_cases hm : var ∈ fx
      · rw [if_pos hm, if_pos hm]; exact ⟨rfl, rfl⟩
      · rw [if_neg hm, if_neg hm]
        rcases e : normalise h (countVar (register s node) node var).numSamples v force with er | ⟨h', v'⟩
        · exact ⟨rfl, rfl⟩
        · dsimp only [shownResult]
          have g := (normalise_spec e).1
          have hst : ((countVar (register s node) node var).states.set node ((((register s node).states.get? node).getD []).set var v')).map (fun q => (q.1, shownVars h' q.2)) =
              (seenState h (countVar (register s node) node var)).states.set node (Dict.set (((seenState h (register s node)).states.get? node).getD []) var (shown h' v')) := by
            rw [set_map (shownVars h'), shownVars, set_map (shown h')]
            have e1 : (countVar (register s node) node var).states.map (fun q => (q.1, shownVars h' q.2)) = (seenState h (countVar (register s node) node var)).states := by
              have := congrArg GState.states (seenState_grows g hb2)
              exact this
            rw [e1, get_seen]
            congr 2
            have hb1 : ∀ p ∈ ((register s node).states.get? node).getD [], shown h' p.2 = shown h p.2 := by
              intro p hp
              exact shown_grows g (b p.2 (holds_register (holds_get hp)))
            apply List.map_congr_left
            intro p hp
            rw [hb1 p hp]
          cases fixed
          · refine ⟨?_, rfl⟩
            unfold seenState at hst ⊢
            dsimp only at hst ⊢
            congr 1
          · refine ⟨?_, rfl⟩
            unfold seenState at hst ⊢
            dsimp only at hst ⊢
            congr 1

theorem set_below {h : Heap α} {s : HState α} {v : HVal α} (b : StateBelow h.length s) (bv : Below h.length v) (node var : Name) (force fixed : Bool) :
    StateBelow (GraphHeap.set h s node var v force fixed).1.length (GraphHeap.set h s node var v force fixed).2.1 := by
  intro w hw
  have h1 := set_spec h s node var v force fixed
  rcases h1.2 w hw with a | a | a
  · exact (b w a).mono h1.1.le
  · rw [a]; exact bv.mono h1.1.le
  · exact a.below

theorem setAll_seen (force fixed : Bool) (node : Name) : ∀ (l : List (Name × HVal α)) (h0 h : Heap α) (s : HState α), Grows h0 h → StateBelow h.length s →
    (∀ p ∈ l, Below h0.length p.2) →
    seenState (setAll force fixed node h s l).1 (setAll force fixed node h s l).2.1 = ((seenState h s).setAll node fixed (shownVars h0 l)).1 ∧
    (setAll force fixed node h s l).2.2 = ((seenState h s).setAll node fixed (shownVars h0 l)).2 ∧
    StateBelow (setAll force fixed node h s l).1.length (setAll force fixed node h s l).2.1
  | [], h0, h, s, g, b, bl => ⟨rfl, rfl, b⟩
  | (var, v) :: rest, h0, h, s, g, b, bl => by
    have bv := bl (var, v) List.mem_cons_self
    have sv : shown h v = shown h0 v := shown_grows g bv
    have h1 := set_seen b node var v force fixed
    have h2 := set_below b (bv.mono g.le) node var force fixed
    have h3 := (set_spec h s node var v force fixed).1
    rw [sv] at h1
    unfold setAll
    show _ = ((seenState h s).setAll node fixed ((var, shown h0 v) :: shownVars h0 rest)).1 ∧ _ = ((seenState h s).setAll node fixed ((var, shown h0 v) :: shownVars h0 rest)).2 ∧ _
    unfold GState.setAll
    rcases hs : GraphHeap.set h s node var v force fixed with ⟨h', s', e⟩
    rcases hg : (seenState h s).set node var (shown h0 v) fixed with ⟨t, e'⟩
    rw [hs] at h1 h2 h3
    rw [hg] at h1
    obtain ⟨e1, e2⟩ := h1
    dsimp only at e1 e2 h2 h3
    subst e2
    cases e with
    | some e => exact ⟨e1, rfl, h2⟩
    | none =>
      dsimp only
      rw [← e1]
      exact setAll_seen force fixed node rest h0 h' s' (g.trans h3) h2 (fun p hp => bl p (List.mem_cons_of_mem _ hp))

theorem setNested_seen (force fixed : Bool) : ∀ (l : List (Name × Dict Name (HVal α))) (h0 h : Heap α) (s : HState α), Grows h0 h → StateBelow h.length s →
    (∀ q ∈ l, ∀ p ∈ q.2, Below h0.length p.2) →
    seenState (setNested force fixed h s l).1 (setNested force fixed h s l).2.1 = ((seenState h s).setNested fixed (l.map fun q => (q.1, shownVars h0 q.2))).1 ∧
    (setNested force fixed h s l).2.2 = ((seenState h s).setNested fixed (l.map fun q => (q.1, shownVars h0 q.2))).2
  | [], h0, h, s, g, b, bl => ⟨rfl, rfl⟩
  | (node, vars) :: rest, h0, h, s, g, b, bl => by
    have h1 := setAll_seen force fixed node vars h0 h s g b (bl (node, vars) List.mem_cons_self)
    have h3 := (setAll_spec force fixed node vars h s).1
    unfold setNested
    rw [List.map_cons]
    unfold GState.setNested
    rcases hs : setAll force fixed node h s vars with ⟨h', s', e⟩
    rcases hg : (seenState h s).setAll node fixed (shownVars h0 vars) with ⟨t, e'⟩
    rw [hs] at h1 h3
    rw [hg] at h1
    obtain ⟨e1, e2, e3⟩ := h1
    dsimp only at e1 e2 e3 h3
    subst e2
    cases e with
    | some e => exact ⟨e1, rfl⟩
    | none =>
      dsimp only
      rw [← e1]
      exact setNested_seen force fixed rest h0 h' s' (g.trans h3) e3 (fun p hp => bl p (List.mem_cons_of_mem _ hp))

theorem update_seen {h : Heap α} {s g : HState α} (b : StateBelow h.length s) (bg : StateBelow h.length g) (force fixed : Bool) :
    seenState (update h s g force fixed).1 (update h s g force fixed).2.1 = ((seenState h s).update (.graph (seenState h g)) fixed).1 ∧
    (update h s g force fixed).2.2 = ((seenState h s).update (.graph (seenState h g)) fixed).2 := by
  have e1 : (seenState h s).numSamples = s.numSamples := rfl
  have e2 : (seenState h g).numSamples = g.numSamples := rfl
  unfold update GState.update
  dsimp only
  rw [e1, e2]
  by_cases hc : s.numSamples ≠ g.numSamples ∧ g.numSamples ≠ 1
  · rw [if_pos hc, if_pos hc]; exact ⟨rfl, rfl⟩
  · rw [if_neg hc, if_neg hc]
    exact setNested_seen force fixed g.states h h s (Grows.refl _) b fun q hq p hp => bg p.2 ⟨q, hq, p, hp, rfl⟩

theorem row_seen (h : Heap α) (v : HVal α) (i : Nat) : GState.row (shown h v) i = (row h v i).map (shown h) := by
  cases v with
  | none => rfl
  | scalar a => rfl
  | arr r s l =>
    show (match ((h.view r s l).map Val.scalar)[i]? with | some x => Except.ok x | none => Except.error Err.indexError) = Except.map (shown h) (match (h.view r s l)[i]? with | some a => Except.ok (HVal.scalar a) | none => Except.error Err.indexError)
    rw [List.getElem?_map]
    cases (h.view r s l)[i]? <;> rfl
  | list r =>
    show (match ((h.cells r).map Val.scalar)[i]? with | some x => Except.ok x | none => Except.error Err.indexError) = Except.map (shown h) (match (h.cells r)[i]? with | some a => Except.ok (HVal.scalar a) | none => Except.error Err.indexError)
    rw [List.getElem?_map]
    cases (h.cells r)[i]? <;> rfl

theorem mapM_corr {β β' γ γ' : Type} (f : β → Except Err γ) (f' : β' → Except Err γ') (a : β → β') (c : γ → γ') (hf : ∀ x, f' (a x) = (f x).map c) :
    ∀ l : List β, (l.map a).mapM f' = (l.mapM f).map (List.map c)
  | [] => rfl
  | x :: l => by
    rw [List.map_cons, List.mapM_cons, List.mapM_cons, hf x, mapM_corr f f' a c hf l]
    cases f x with
    | error e => rfl
    | ok y => cases l.mapM f <;> rfl

theorem rowDict_seen (h : Heap α) (d : Dict Name (HVal α)) (i : Nat) : GState.rowDict (shownVars h d) i = (rowDict h d i).map (shownVars h) := by
  refine mapM_corr _ _ (fun p : Name × HVal α => (p.1, shown h p.2)) _ ?_ d
  rintro ⟨k, v⟩
  dsimp only
  rw [row_seen]
  cases row h v i <;> rfl

theorem extract_seen (h : Heap α) (s : HState α) (k : Int) : (seenState h s).extractSample k = (extractSample h s k).map (seenState h) := by
  unfold GState.extractSample extractSample
  show (if k < 0 ∨ k ≥ (s.numSamples : Int) then _ else _) = _
  split
  · rfl
  · have key : (seenState h s).states.mapM (fun (q : Name × Dict Name (Val α)) => (do
        let d ← if s.numSamples = 1 then pure q.2 else GState.rowDict q.2 k.toNat
        return ((q.1, d) : Name × Dict Name (Val α)) : Except Err _)) =
        (s.states.mapM (fun (q : Name × Dict Name (HVal α)) => (do
          let d ← if s.numSamples = 1 then pure q.2 else rowDict h q.2 k.toNat
          return ((q.1, d) : Name × Dict Name (HVal α)) : Except Err _))).map (List.map fun q => (q.1, shownVars h q.2)) := by
      rw [seenState_states]
      refine mapM_corr _ _ (fun q : Name × Dict Name (HVal α) => (q.1, shownVars h q.2)) _ ?_ s.states
      rintro ⟨n, d⟩
      dsimp only
      by_cases h1 : s.numSamples = 1
      · rw [if_pos h1, if_pos h1]; rfl
      · rw [if_neg h1, if_neg h1, rowDict_seen]
        cases rowDict h d k.toNat <;> rfl
    show ((seenState h s).states.mapM (fun (q : Name × Dict Name (Val α)) => (do
        let d ← if s.numSamples = 1 then pure q.2 else GState.rowDict q.2 k.toNat
        return ((q.1, d) : Name × Dict Name (Val α)) : Except Err _)) >>= _) = _
    rw [key]
    show _ = Except.map _ ((s.states.mapM (fun (q : Name × Dict Name (HVal α)) => (do
          let d ← if s.numSamples = 1 then pure q.2 else rowDict h q.2 k.toNat
          return ((q.1, d) : Name × Dict Name (HVal α)) : Except Err _))) >>= _)
    cases (s.states.mapM (fun (q : Name × Dict Name (HVal α)) => (do
          let d ← if s.numSamples = 1 then pure q.2 else rowDict h q.2 k.toNat
          return ((q.1, d) : Name × Dict Name (HVal α)) : Except Err _))) <;> rfl

/-! ### C128 -/

/-- The states of numbers below the bound show what they showed when only objects were made. -/
theorem seen_old {W : World α} (H : Sound W) {h' : Heap α} (g : Grows W.heap h') {l : List (HState α)} {vars nodes} {k : Nat} (hl : l[k]? = W.states[k]?) :
    seen ⟨h', l, vars, nodes⟩ k = seen W k := by
  unfold seen
  dsimp only
  rw [hl]
  cases e : W.states[k]? with
  | none => rfl
  | some s => exact congrArg some (seenState_grows g (H.states s (List.mem_of_getElem? e)))

/-- C128. After every statement but a write into an array or a dictionary, a program sees exactly what the model of graph states as values (`Model/GraphState`, the model
of C01 to C10, C60, C120 and C121) says: `set`, `update`, `copy` and `extract_single_sample` do to what is shown what that model does, with or without `force_copy`, and
all other states show what they showed. -/
theorem C128_values {W : World α} (hW : Reachable W) {i : Nat} {s : HState α} (hi : W.states[i]? = some s) :
    (∀ node var x v force fixed, W.vars[x]? = some v →
      seen (step W (.set i node var x force fixed)).1 i = some ((seenState W.heap s).set node var (shown W.heap v) fixed).1 ∧
      (step W (.set i node var x force fixed)).2 = ((seenState W.heap s).set node var (shown W.heap v) fixed).2 ∧
      ∀ k, k ≠ i → seen (step W (.set i node var x force fixed)).1 k = seen W k) ∧
    (∀ j g force fixed, W.states[j]? = some g →
      seen (step W (.update i j force fixed)).1 i = some ((seenState W.heap s).update (.graph (seenState W.heap g)) fixed).1 ∧
      (step W (.update i j force fixed)).2 = ((seenState W.heap s).update (.graph (seenState W.heap g)) fixed).2 ∧
      ∀ k, k ≠ i → seen (step W (.update i j force fixed)).1 k = seen W k) ∧
    (seen (step W (.copy i)).1 W.states.length = some (seenState W.heap s).copy ∧ ∀ k < W.states.length, seen (step W (.copy i)).1 k = seen W k) ∧
    ∀ k, (∀ e, (seenState W.heap s).extractSample k = .error e → step W (.sample i k) = (W, some e)) ∧
      ∀ t, (seenState W.heap s).extractSample k = .ok t → seen (step W (.sample i k)).1 W.states.length = some t ∧
        ∀ j < W.states.length, seen (step W (.sample i k)).1 j = seen W j := by
  have H := reachable_sound hW
  have hs := H.states s (List.mem_of_getElem? hi)
  have hlt : i < W.states.length := by
    rcases Nat.lt_or_ge i W.states.length with h | h
    · exact h
    · rw [List.getElem?_eq_none h] at hi; cases hi
  refine ⟨?_, ?_, ?_, ?_⟩
  · intro node var x v force fixed hx
    have hv := H.vars v (List.mem_of_getElem? hx)
    have h1 := set_seen hs node var v force fixed
    have e : step W (.set i node var x force fixed) = W.put i (GraphHeap.set W.heap s node var v force fixed) := by
      show (match W.states[i]?, W.vars[x]? with | some s, some v => _ | _, _ => _) = _
      rw [hi, hx]
    rw [e]
    refine ⟨?_, h1.2, ?_⟩
    · unfold seen World.put
      dsimp only
      rw [List.getElem?_set_self hlt]
      exact congrArg some h1.1
    · intro k hk
      exact seen_old H (set_spec W.heap s node var v force fixed).1 (List.getElem?_set_ne (Ne.symm hk))
  · intro j g force fixed hj
    have h1 := update_seen hs (H.states g (List.mem_of_getElem? hj)) force fixed
    have e : step W (.update i j force fixed) = W.put i (update W.heap s g force fixed) := by
      show (match W.states[i]?, W.states[j]? with | some s, some g => _ | _, _ => _) = _
      rw [hi, hj]
    rw [e]
    refine ⟨?_, h1.2, ?_⟩
    · unfold seen World.put
      dsimp only
      rw [List.getElem?_set_self hlt]
      exact congrArg some h1.1
    · intro k hk
      exact seen_old H (update_spec W.heap s g force fixed).1 (List.getElem?_set_ne (Ne.symm hk))
  · have e : step W (.copy i) = ({ W with heap := (copy W.heap s).1, states := W.states ++ [(copy W.heap s).2] }, none) := by
      show (match W.states[i]? with | none => _ | some s => _) = _
      rw [hi]
    rw [e]
    constructor
    · unfold seen
      dsimp only
      rw [List.getElem?_append_right (Nat.le_refl _), Nat.sub_self]
      show some _ = some _
      rw [copy_seen W.heap hs]
      unfold GState.copy
      simp
    · intro k hk
      exact seen_old H (copy_spec W.heap s).1 (List.getElem?_append_left hk)
  · intro k
    have h1 := extract_seen W.heap s k
    have e : step W (.sample i k) = match extractSample W.heap s k with | .error e => (W, some e) | .ok s' => ({ W with states := W.states ++ [s'] }, none) := by
      show (match W.states[i]? with | none => _ | some s => _) = _
      rw [hi]
      rfl
    rw [e, h1]
    cases extractSample W.heap s k with
    | error er =>
      constructor
      · intro e' he; cases he; rfl
      · intro t ht; cases ht
    | ok s' =>
      constructor
      · intro e' he; cases he
      · intro t ht
        cases ht
        constructor
        · unfold seen
          dsimp only
          rw [List.getElem?_append_right (Nat.le_refl _), Nat.sub_self]
          rfl
        · intro j hj
          exact seen_old H (Grows.refl _) (List.getElem?_append_left hj)

/-- C128, for states of several samples. A copy is deep: it shows what the state shows, and goes on showing it whatever a program does that does not name the copy, with
in-place writes into any arrays it has or gets, into the state's own and those it was made from; and nothing a program does with the copy and what it gets from it
changes what the state, or any other state that was there, shows. Missing: states of one sample, see the counterexample. -/
theorem C128_copy_partial {W : World α} (hW : Reachable W) {i : Nat} {s : HState α} (hi : W.states[i]? = some s) (hn : s.numSamples ≠ 1) :
    seen (step W (.copy i)).1 W.states.length = seen W i ∧
    (∀ ops, (∀ op ∈ ops, W.states.length ∉ namesStates op) → seen (run (step W (.copy i)).1 ops) W.states.length = seen W i) ∧
    ∀ ops, (∀ op ∈ ops, (∀ k ∈ namesStates op, W.states.length ≤ k) ∧ (∀ x ∈ namesVars op, W.vars.length ≤ x) ∧ ∀ g ∈ namesNodes op, W.nodes.length ≤ g) →
      ∀ k < W.states.length, seen (run (step W (.copy i)).1 ops) k = seen W k := by
  have H := reachable_sound hW
  have hs := H.states s (List.mem_of_getElem? hi)
  have e : (step W (.copy i)).1 = { W with heap := (copy W.heap s).1, states := W.states ++ [(copy W.heap s).2] } := by
    show (match W.states[i]? with | none => (W, some Err.nameError) | some s => ({ W with heap := (copy W.heap s).1, states := W.states ++ [(copy W.heap s).2] }, none)).1 = _
    rw [hi]
  have h1 := copy_spec W.heap s
  have hf := copy_fresh W.heap hn
  have last : (W.states ++ [(copy W.heap s).2])[W.states.length]? = some (copy W.heap s).2 := by
    rw [List.getElem?_append_right (Nat.le_refl _), Nat.sub_self]; rfl
  have base : seen (step W (.copy i)).1 W.states.length = seen W i := by
    rw [e]
    unfold seen
    dsimp only
    rw [last, hi]
    exact congrArg some (copy_seen W.heap hs)
  refine ⟨base, ?_, ?_⟩
  · intro ops hops
    rw [← base]
    have A : Apart (step W (.copy i)).1 (fun r => W.heap.length ≤ r ∧ r < (copy W.heap s).1.length) (fun k => k ≠ W.states.length) (fun _ => True) (fun _ => True) := by
      rw [e]
      refine ⟨?_, ?_, ?_, fun r hr => hr.2, ?_, fun _ _ => trivial, fun _ _ => trivial⟩
      · intro k t hk hne w hw r hr hS
        dsimp only at hk
        have hlt : k < W.states.length := by
          rcases Nat.lt_or_ge k W.states.length with h | h
          · exact h
          · rw [List.getElem?_eq_none (by simp; omega)] at hk; cases hk
        rw [List.getElem?_append_left hlt] at hk
        have := H.states t (List.mem_of_getElem? hk) w hw r hr
        omega
      · intro x v hx _ r hr hS
        have := H.vars v (List.mem_of_getElem? hx) r hr
        omega
      · intro g nd hg _ hS
        have := H.nodes nd (List.mem_of_getElem? hg)
        omega
      · intro k hk
        simp at hk
        omega
    have K := run_kept ops A fun op ho => ⟨fun k hk e' => hops op ho (e' ▸ hk), fun _ _ => trivial, fun _ _ => trivial⟩
    refine K.seen (fun h => h rfl) ?_
    intro t ht w hw r hr
    rw [e] at ht
    dsimp only at ht
    rw [last] at ht
    cases ht
    exact hf w hw r hr
  · intro ops hops k hk
    have old : seen (step W (.copy i)).1 k = seen W k := by
      rw [e]
      exact seen_old H h1.1 (List.getElem?_append_left hk)
    rw [← old]
    have A : Apart (step W (.copy i)).1 (fun r => r < W.heap.length) (fun k => W.states.length ≤ k) (fun x => W.vars.length ≤ x) (fun g => W.nodes.length ≤ g) := by
      rw [e]
      refine ⟨?_, ?_, ?_, ?_, ?_, fun _ h => h, fun _ h => h⟩
      · intro j t hj hle w hw r hr hS
        dsimp only at hj
        rw [List.getElem?_append_right hle] at hj
        have := List.mem_of_getElem? hj
        rw [List.mem_singleton] at this
        rw [this] at hw
        have := (hf w hw r hr).1
        omega
      · intro x v hx hle
        dsimp only at hx
        rw [List.getElem?_eq_none hle] at hx; cases hx
      · intro x v hx hle
        dsimp only at hx
        rw [List.getElem?_eq_none hle] at hx; cases hx
      · intro r hr
        exact Nat.lt_of_lt_of_le hr h1.1.le
      · intro j hj
        simp at hj
        omega
    have K := run_kept ops A fun op ho => hops op ho
    refine K.seen (fun h => by omega) ?_
    intro t ht w hw r hr
    rw [e] at ht
    dsimp only at ht
    rw [List.getElem?_append_left hk] at ht
    exact H.states t (List.mem_of_getElem? ht) w hw r hr

theorem set_ok {h : Heap α} {s : HState α} {node var : Name} {v : HVal α} {force fixed : Bool} (ok : (GraphHeap.set h s node var v force fixed).2.2 = none)
    (hfree : var ∉ (s.fixed.get? node).getD []) :
    ∃ h' v', normalise h s.numSamples v force = .ok (h', v') ∧ (GraphHeap.set h s node var v force fixed).1 = h' ∧
      lookup (GraphHeap.set h s node var v force fixed).2.1 node var = some v' := by
  unfold GraphHeap.set at ok ⊢
  split at ok
  · cases ok
  · rename_i hd
    rw [if_neg hd]
    dsimp only at ok ⊢
    rw [countVar_fixed, countVar_samples, register_samples, countVar_states] at ok ⊢
    have hfx : ∀ fx, (register s node).fixed.get? node = some fx → var ∉ fx := by
      intro fx hx
      unfold register at hx
      split at hx
      · rw [hx] at hfree; exact hfree
      · dsimp only at hx
        rw [Dict.get?_set_self] at hx
        cases hx
        simp
    cases hf : (register s node).fixed.get? node with
    | none => rw [hf] at ok; cases ok
    | some fx =>
      rw [hf] at ok
      dsimp only at ok ⊢
      rw [if_neg (hfx fx hf)] at ok ⊢
      cases hn : normalise h s.numSamples v force with
      | error e => rw [hn] at ok; cases ok
      | ok q =>
        obtain ⟨h', v'⟩ := q
        dsimp only
        refine ⟨h', v', rfl, ?_, ?_⟩
        · cases fixed <;> rfl
        · cases fixed <;> (simp only [lookup, if_true]; simp)

theorem normalise_force {h : Heap α} {n : Nat} (hn : n ≠ 1) {v : HVal α} {h' : Heap α} {v' : HVal α} (e : normalise h n v true = .ok (h', v')) :
    Fresh h h' v' ∧ shown h' v' = expanded n (shown h v) := by
  unfold normalise at e
  rw [if_neg hn] at e
  cases v with
  | none => cases e
  | scalar a =>
    cases e
    refine ⟨fresh_alloc _ _, ?_⟩
    exact (shown_alloc h (List.replicate n a)).trans (by simp [shown, expanded])
  | arr r s l =>
    dsimp only at e
    split at e
    · cases e
    · cases e
      exact ⟨fresh_alloc _ _, shown_alloc _ _⟩
  | list r =>
    dsimp only at e
    split at e
    · cases e
    · cases e
      exact ⟨fresh_alloc _ _, shown_alloc _ _⟩

theorem put_get {W : World α} {i : Nat} {s : HState α} (hi : W.states[i]? = some s) (r : Heap α × HState α × Option Err) : (W.put i r).1.states[i]? = some r.2.1 := by
  have hlt : i < W.states.length := by
    rcases Nat.lt_or_ge i W.states.length with h | h
    · exact h
    · rw [List.getElem?_eq_none h] at hi; cases hi
  exact List.getElem?_set_self hlt

theorem step_set {W : World α} {i x : Nat} {s : HState α} {v : HVal α} (hi : W.states[i]? = some s) (hx : W.vars[x]? = some v) (node var : Name) (force fixed : Bool) :
    step W (.set i node var x force fixed) = W.put i (GraphHeap.set W.heap s node var v force fixed) := by
  show (match W.states[i]?, W.vars[x]? with | some s, some v => _ | _, _ => _) = _
  rw [hi, hx]

/-- C128, for states of several samples. A parameter that was set with `force_copy` (and is not fixed) shows the given value, a number repeated for every sample, and goes
on showing it whatever a program does that does not name the state, with writes into the array it was set from. Missing: states of one sample, see the counterexample. -/
theorem C128_force_copy_partial {W : World α} (hW : Reachable W) {i x : Nat} {s : HState α} {v : HVal α} (hi : W.states[i]? = some s) (hx : W.vars[x]? = some v)
    (hn : s.numSamples ≠ 1) {node var : Name} {fixed : Bool} (hfree : var ∉ (s.fixed.get? node).getD []) (ok : (step W (.set i node var x true fixed)).2 = none) :
    seenParam (step W (.set i node var x true fixed)).1 i node var = some (expanded s.numSamples (shown W.heap v)) ∧
    ∀ ops, (∀ op ∈ ops, i ∉ namesStates op) →
      seenParam (run (step W (.set i node var x true fixed)).1 ops) i node var = some (expanded s.numSamples (shown W.heap v)) := by
  have H := reachable_sound hW
  rw [step_set hi hx] at ok ⊢
  obtain ⟨h', v', n1, n2, n3⟩ := set_ok ok hfree
  obtain ⟨f1, f2⟩ := normalise_force hn n1
  have hget := put_get hi (GraphHeap.set W.heap s node var v true fixed)
  have hheap : (W.put i (GraphHeap.set W.heap s node var v true fixed)).1.heap = h' := n2
  have g := (normalise_spec n1).1
  have base : seenParam (W.put i (GraphHeap.set W.heap s node var v true fixed)).1 i node var = some (expanded s.numSamples (shown W.heap v)) := by
    unfold seenParam
    rw [hget]
    show (lookup _ node var).map _ = _
    rw [n3, hheap]
    exact congrArg some f2
  refine ⟨base, ?_⟩
  intro ops hops
  have A : Apart (W.put i (GraphHeap.set W.heap s node var v true fixed)).1 (fun r => r ∈ v'.refs) (fun k => k ≠ i) (fun _ => True) (fun _ => True) := by
    refine ⟨?_, ?_, ?_, ?_, ?_, fun _ _ => trivial, fun _ _ => trivial⟩
    · intro k t hk hne w hw r hr hS
      have hk' : W.states[k]? = some t := by
        rw [← hk]
        exact (List.getElem?_set_ne (Ne.symm hne)).symm
      have := H.states t (List.mem_of_getElem? hk') w hw r hr
      have := (f1 r hS).1
      omega
    · intro y u hy _ r hr hS
      have := H.vars u (List.mem_of_getElem? hy) r hr
      have := (f1 r hS).1
      omega
    · intro y nd hy _ hS
      have := H.nodes nd (List.mem_of_getElem? hy)
      have := (f1 _ hS).1
      omega
    · intro r hr
      rw [hheap]
      exact (f1 r hr).2
    · intro k hk e
      subst e
      have hk' : W.states.length ≤ k := by
        have : (W.put k (GraphHeap.set W.heap s node var v true fixed)).1.states.length = W.states.length := List.length_set
        omega
      rw [List.getElem?_eq_none hk'] at hi
      cases hi
  have K := run_kept ops A fun op ho => ⟨fun k hk e' => hops op ho (e' ▸ hk), fun _ _ => trivial, fun _ _ => trivial⟩
  rw [← base]
  unfold seenParam
  rw [K.2.1 i (fun h => h rfl), hget]
  show (lookup _ node var).map _ = (lookup _ node var).map _
  rw [n3]
  exact congrArg some (shown_congr fun r hr => K.1 r hr)

theorem view_write {h : Heap α} {r st l k : Nat} (hk : k < (h.view r st l).length) (a : α) : (writeCell h r (st + k) a).view r st l = (h.view r st l).set k a := by
  have hr : r < h.length := by
    rcases Nat.lt_or_ge r h.length with h1 | h1
    · exact h1
    · simp [Heap.view, Heap.cells, List.getElem?_eq_none h1] at hk
  have e : (writeCell h r (st + k) a).cells r = (h.cells r).set (st + k) a := by
    unfold writeCell Heap.cells
    rw [List.getElem?_set_self hr]
    rfl
  unfold Heap.view
  rw [e]
  apply List.ext_getElem?
  intro j
  simp only [List.getElem?_take, List.getElem?_drop, List.getElem?_set, List.length_take, List.length_drop]
  simp only [Heap.view, List.length_take, List.length_drop] at hk
  by_cases h1 : j < l
  · by_cases h2 : k = j
    · subst h2
      have : st + k < (h.cells r).length := by omega
      simp [h1, ‹st + k < (h.cells r).length›]
      exact hk
    · have : st + k ≠ st + j := by omega
      simp [h1, h2]
  · have : k ≠ j := by omega
    simp [h1, this]

theorem step_write {W : World α} {x : Nat} {v : HVal α} (hx : W.vars[x]? = some v) (k : Nat) (a : α) : (step W (.write x k a)).1 = { W with heap := (write W.heap v k a).1 } := by
  unfold step
  dsimp only
  rw [hx]

/-- C128. Without `force_copy` the state of several samples is linked to the array, as documented: a write into the array shows in the state. -/
theorem C128_linked {W : World α} {i x : Nat} {s : HState α} {r st l : Nat} (hi : W.states[i]? = some s) (hx : W.vars[x]? = some (.arr r st l))
    (hn : s.numSamples ≠ 1) {node var : Name} {fixed : Bool} (hfree : var ∉ (s.fixed.get? node).getD []) (ok : (step W (.set i node var x false fixed)).2 = none)
    {k : Nat} (hk : k < (W.heap.view r st l).length) (a : α) :
    seenParam (step (step W (.set i node var x false fixed)).1 (.write x k a)).1 i node var = some (.arr (((W.heap.view r st l).set k a).map .scalar)) := by
  rw [step_set hi hx] at ok ⊢
  obtain ⟨h', v', n1, n2, n3⟩ := set_ok ok hfree
  have hget := put_get hi (GraphHeap.set W.heap s node var (.arr r st l) false fixed)
  unfold normalise at n1
  rw [if_neg hn] at n1
  dsimp only at n1
  split at n1
  · cases n1
  · cases n1
    have hw : (step (W.put i (GraphHeap.set W.heap s node var (.arr r st l) false fixed)).1 (.write x k a)).1 =
        { (W.put i (GraphHeap.set W.heap s node var (.arr r st l) false fixed)).1 with heap := (write W.heap (.arr r st l) k a).1 } := by
      rw [step_write (W := (W.put i (GraphHeap.set W.heap s node var (.arr r st l) false fixed)).1) (v := .arr r st l) hx]
      show World.mk (write (GraphHeap.set W.heap s node var (.arr r st l) false fixed).1 (.arr r st l) k a).1 _ _ _ = _
      rw [n2]
    rw [hw]
    unfold seenParam
    dsimp only
    rw [hget]
    show (lookup _ node var).map _ = _
    rw [n3]
    show some (Val.arr (((write W.heap (.arr r st l) k a).1.view r st l).map Val.scalar)) = _
    have : (write W.heap (.arr r st l) k a).1 = writeCell W.heap r (st + k) a := by
      unfold write
      dsimp only
      rw [if_pos hk]
    rw [this, view_write hk]

theorem copyVars_one : ∀ (d : Dict Name (HVal α)) (h : Heap α), copyVars 1 h d = (h, d)
  | [], h => rfl
  | (k, v) :: rest, h => by
    have e : copyVal 1 h v = (h, v) := by cases v <;> rfl
    unfold copyVars
    rw [e]
    dsimp only
    rw [copyVars_one rest h]

theorem copyNodes_one : ∀ (d : Dict Name (Dict Name (HVal α))) (h : Heap α), copyNodes 1 h d = (h, d)
  | [], h => rfl
  | (k, v) :: rest, h => by
    unfold copyNodes
    rw [copyVars_one v h]
    dsimp only
    rw [copyNodes_one rest h]

/-- C128, the code disagrees: the copy of a state of one sample is not deep. For every such state with an array in it (several numbers for the one sample), a program that
only gets the array from the original state and writes into it changes what the copy shows. -/
theorem C128_single_counterexample {W : World α} {i : Nat} {s : HState α} (hi : W.states[i]? = some s) (hn : s.numSamples = 1) {node var : Name} {r st l : Nat}
    (hv : lookup s node var = some (.arr r st l)) {b : α} {rest : List α} (hb : W.heap.view r st l = b :: rest) (a : α) :
    seenParam (step W (.copy i)).1 W.states.length node var = some (.arr ((b :: rest).map .scalar)) ∧
    (∀ op ∈ [Op.get i node var, Op.write W.vars.length 0 a], W.states.length ∉ namesStates op) ∧
    seenParam (run (step W (.copy i)).1 [.get i node var, .write W.vars.length 0 a]) W.states.length node var = some (.arr ((a :: rest).map .scalar)) := by
  have hlt : i < W.states.length := by
    rcases Nat.lt_or_ge i W.states.length with h | h
    · exact h
    · rw [List.getElem?_eq_none h] at hi; cases hi
  have ec : copy W.heap s = (W.heap, s) := by
    unfold copy
    rw [hn, copyNodes_one, ← hn]
  have e : (step W (.copy i)).1 = { W with states := W.states ++ [s] } := by
    show (match W.states[i]? with | none => (W, some Err.nameError) | some s => ({ W with heap := (copy W.heap s).1, states := W.states ++ [(copy W.heap s).2] }, none)).1 = _
    rw [hi]
    dsimp only
    rw [ec]
  have last : (W.states ++ [s])[W.states.length]? = some s := by
    rw [List.getElem?_append_right (Nat.le_refl _), Nat.sub_self]; rfl
  have e2 : (step { W with states := W.states ++ [s] } (.get i node var)).1 = { W with states := W.states ++ [s], vars := W.vars ++ [.arr r st l] } := by
    unfold step
    dsimp only
    rw [List.getElem?_append_left hlt, hi]
    dsimp only
    rw [hv]
  have hk : 0 < (W.heap.view r st l).length := by rw [hb]; simp
  have e3 : (step { W with states := W.states ++ [s], vars := W.vars ++ [.arr r st l] } (.write W.vars.length 0 a)).1 =
      { W with heap := writeCell W.heap r (st + 0) a, states := W.states ++ [s], vars := W.vars ++ [.arr r st l] } := by
    unfold step
    dsimp only
    rw [List.getElem?_append_right (Nat.le_refl _), Nat.sub_self]
    dsimp only [List.getElem?_cons_zero]
    unfold write
    dsimp only
    rw [if_pos hk]
  refine ⟨?_, ?_, ?_⟩
  · rw [e]
    unfold seenParam
    dsimp only
    rw [last]
    show (lookup s node var).map _ = _
    rw [hv]
    show some (Val.arr ((W.heap.view r st l).map Val.scalar)) = _
    rw [hb]
  · intro op ho hm
    simp only [List.mem_cons, List.not_mem_nil, or_false] at ho
    rcases ho with rfl | rfl
    · simp only [namesStates, List.mem_singleton] at hm
      omega
    · cases hm
  · show seenParam (step (step (step W (.copy i)).1 (.get i node var)).1 (.write W.vars.length 0 a)).1 _ node var = _
    rw [e, e2, e3]
    unfold seenParam
    dsimp only
    rw [last]
    show (lookup s node var).map _ = _
    rw [hv]
    show some (Val.arr (((writeCell W.heap r (st + 0) a).view r st l).map Val.scalar)) = _
    rw [view_write hk, hb]
    rfl

/-- C128, the code disagrees: in a state of one sample `force_copy` is ignored, for every array. -/
theorem C128_single_force_counterexample {W : World α} {i x : Nat} {s : HState α} {r st l : Nat} (hi : W.states[i]? = some s) (hx : W.vars[x]? = some (.arr r st l))
    (hn : s.numSamples = 1) {node var : Name} {fixed : Bool} (hfree : var ∉ (s.fixed.get? node).getD []) (ok : (step W (.set i node var x true fixed)).2 = none)
    {k : Nat} (hk : k < (W.heap.view r st l).length) (a : α) :
    seenParam (step (step W (.set i node var x true fixed)).1 (.write x k a)).1 i node var = some (.arr (((W.heap.view r st l).set k a).map .scalar)) := by
  rw [step_set hi hx] at ok ⊢
  obtain ⟨h', v', n1, n2, n3⟩ := set_ok ok hfree
  have hget := put_get hi (GraphHeap.set W.heap s node var (.arr r st l) true fixed)
  unfold normalise at n1
  rw [if_pos hn] at n1
  cases n1
  have hw : (step (W.put i (GraphHeap.set W.heap s node var (.arr r st l) true fixed)).1 (.write x k a)).1 =
      { (W.put i (GraphHeap.set W.heap s node var (.arr r st l) true fixed)).1 with heap := (write W.heap (.arr r st l) k a).1 } := by
    rw [step_write (W := (W.put i (GraphHeap.set W.heap s node var (.arr r st l) true fixed)).1) (v := .arr r st l) hx]
    show World.mk (write (GraphHeap.set W.heap s node var (.arr r st l) true fixed).1 (.arr r st l) k a).1 _ _ _ = _
    rw [n2]
  rw [hw]
  unfold seenParam
  dsimp only
  rw [hget]
  show (lookup _ node var).map _ = _
  rw [n3]
  show some (Val.arr (((write W.heap (.arr r st l) k a).1.view r st l).map Val.scalar)) = _
  have : (write W.heap (.arr r st l) k a).1 = writeCell W.heap r (st + k) a := by
    unfold write
    dsimp only
    rw [if_pos hk]
  rw [this, view_write hk]

/-- A program: an array of three numbers, a state of three samples and one of one sample, both set from the array; the first with `force_copy`. -/
def demo : List (Op Nat) :=
  [.array [1, 2, 3], .new 3, .new 1, .set 0 "n".toList "x".toList 0 true false, .set 1 "n".toList "x".toList 0 true false]

/-- The hypotheses of the theorems are met: the memory after `demo` is reached by a program, the first state has several samples, the second has one and an array in it. -/
example : ∃ s t : HState Nat, Reachable (run start demo) ∧ (run start demo).states[0]? = some s ∧ s.numSamples ≠ 1 ∧ lookup s "n".toList "x".toList = some (.arr 1 0 3) ∧
    (run start demo).states[1]? = some t ∧ t.numSamples = 1 ∧ lookup t "n".toList "x".toList = some (.arr 0 0 3) ∧ (run start demo).heap.view 0 0 3 = [1, 2, 3] ∧
    (run start demo).vars[0]? = some (.arr 0 0 3) ∧ "y".toList ∉ (s.fixed.get? "n".toList).getD [] ∧
    (step (run start demo) (.set 0 "n".toList "y".toList 0 true false)).2 = none ∧ (step (run start demo) (.set 1 "n".toList "y".toList 0 true false)).2 = none :=
  ⟨_, _, ⟨demo, rfl⟩, rfl, by decide, rfl, rfl, by decide, rfl, rfl, rfl, by decide, rfl, rfl⟩

/-! ### C129 -/

theorem grows_step {W : World α} (op : Op α) (hw : writesArray op = false) : Grows W.heap (step W op).1.heap := by
  cases op with
  | array l => exact Grows.append _ _
  | list l => exact Grows.append _ _
  | num a => exact Grows.refl _
  | write x k a => cases hw
  | new n => unfold step; dsimp only; split <;> exact Grows.refl _
  | set i node var x force fixed =>
    unfold step; dsimp only; split
    · exact (set_spec _ _ _ _ _ _ _).1
    · exact Grows.refl _
  | copy i =>
    unfold step; dsimp only; split
    · exact Grows.refl _
    · exact (copy_spec _ _).1
  | sample i k => unfold step; dsimp only; split <;> (try split) <;> exact Grows.refl _
  | update i j force fixed =>
    unfold step; dsimp only; split
    · exact (update_spec _ _ _ _ _).1
    · exact Grows.refl _
  | get i node var => unfold step; dsimp only; split <;> (try split) <;> exact Grows.refl _
  | assign i node var x => unfold step; dsimp only; split <;> (try split) <;> exact Grows.refl _
  | given x =>
    unfold step; dsimp only; split
    · exact Grows.refl _
    · rename_i v hx
      cases v with
      | none => exact Grows.refl _
      | scalar a => exact Grows.refl _
      | arr r s l => by_cases h0 : (W.heap.view r s l).length = 0 <;> simp only [makeGiven, h0, if_true, if_false] <;> exact Grows.refl _
      | list r => by_cases h0 : (W.heap.cells r).length = 0 <;> simp only [makeGiven, h0, if_true, if_false] <;> exact Grows.append _ _
  | compute g i node var =>
    unfold step; dsimp only; split
    · split
      · exact Grows.refl _
      · exact (set_spec _ _ _ _ _ _ _).1
    · exact Grows.refl _
  | reset g => unfold step; dsimp only; split <;> exact Grows.refl _

/-- A node keeps its array. -/
theorem node_step {W : World α} (op : Op α) {g : Nat} {nd : Given} (hg : W.nodes[g]? = some nd) : ∃ n, (step W op).1.nodes[g]? = some { nd with next := n } := by
  have same : ∃ n, W.nodes[g]? = some { nd with next := n } := ⟨nd.next, hg⟩
  have hlt : g < W.nodes.length := by
    rcases Nat.lt_or_ge g W.nodes.length with h | h
    · exact h
    · rw [List.getElem?_eq_none h] at hg; cases hg
  cases op with
  | array l => exact same
  | list l => exact same
  | num a => exact same
  | write x k a => unfold step; dsimp only; split <;> exact same
  | new n => unfold step; dsimp only; split <;> exact same
  | set i node var x force fixed => unfold step; dsimp only; split <;> exact same
  | copy i => unfold step; dsimp only; split <;> exact same
  | sample i k => unfold step; dsimp only; split <;> (try split) <;> exact same
  | update i j force fixed => unfold step; dsimp only; split <;> exact same
  | get i node var => unfold step; dsimp only; split <;> (try split) <;> exact same
  | assign i node var x => unfold step; dsimp only; split <;> (try split) <;> exact same
  | given x =>
    have app : ∀ nd', ∃ n, (W.nodes ++ [nd'])[g]? = some { nd with next := n } := fun nd' => ⟨nd.next, by rw [List.getElem?_append_left hlt]; exact hg⟩
    unfold step; dsimp only; split
    · exact same
    · rename_i v hx
      cases v with
      | none => exact same
      | scalar a => exact same
      | arr r s l =>
        by_cases h0 : (W.heap.view r s l).length = 0 <;> simp only [makeGiven, h0, if_true, if_false]
        · exact same
        · exact app _
      | list r =>
        by_cases h0 : (W.heap.cells r).length = 0 <;> simp only [makeGiven, h0, if_true, if_false]
        · exact same
        · exact app _
  | compute g' i node var =>
    unfold step; dsimp only; split
    · rename_i nd' s hg' hi
      split
      · exact same
      · rename_i nd2 v e
        obtain ⟨e1, e2, e3, -⟩ := giveNext_spec e
        show ∃ n, (W.nodes.set g' nd2)[g]? = _
        by_cases h : g' = g
        · subst h
          rw [hg] at hg'
          cases hg'
          refine ⟨nd2.next, ?_⟩
          rw [List.getElem?_set_self hlt]
          obtain ⟨a, b, c, d⟩ := nd2
          dsimp only at e1 e2 e3
          rw [e1, e2, e3]
        · rw [List.getElem?_set_ne h]
          exact same
    · exact same
  | reset g' =>
    unfold step; dsimp only; split
    · exact same
    · rename_i nd' hg'
      show ∃ n, (W.nodes.set g' { nd' with next := 0 })[g]? = _
      by_cases h : g' = g
      · subst h
        rw [hg] at hg'
        cases hg'
        exact ⟨0, List.getElem?_set_self hlt⟩
      · rw [List.getElem?_set_ne h]
        exact same

theorem node_run : ∀ (ops : List (Op α)) {W : World α} {g : Nat} {nd : Given}, W.nodes[g]? = some nd → ∃ n, (run W ops).nodes[g]? = some { nd with next := n }
  | [], W, g, nd, h => ⟨nd.next, h⟩
  | op :: rest, W, g, nd, h => by
    obtain ⟨n, hn⟩ := node_step op h
    obtain ⟨m, hm⟩ := node_run rest hn
    exact ⟨m, hm⟩

theorem grows_run : ∀ (ops : List (Op α)) {W : World α}, (∀ op ∈ ops, writesArray op = false) → Grows W.heap (run W ops).heap
  | [], W, _ => Grows.refl _
  | op :: rest, W, h => (grows_step op (h op List.mem_cons_self)).trans (grows_run rest fun o ho => h o (List.mem_cons_of_mem _ ho))

/-- C129, where it holds. A `GivenValueList` that is made from a list or an array has its values; whatever a program does without writing into arrays (sampling from it any
number of times into any states included) it keeps them; and one made from a list keeps them in a program that writes into arrays, too, if it is not sampled from.
Missing: writes into the array it was made from, and into the arrays of states sampled from it, see the counterexamples. -/
theorem C129_values_partial {W : World α} (hW : Reachable W) {x : Nat} {v : HVal α} (hx : W.vars[x]? = some v) (ok : (step W (.given x)).2 = none) :
    ∃ l, shown W.heap v = .arr (l.map .scalar) ∧ givenValues (step W (.given x)).1 W.nodes.length = some l ∧
      (∀ ops, (∀ op ∈ ops, writesArray op = false) → givenValues (run (step W (.given x)).1 ops) W.nodes.length = some l) ∧
      ∀ r, v = .list r → ∀ ops, (∀ op ∈ ops, W.nodes.length ∉ namesNodes op) → givenValues (run (step W (.given x)).1 ops) W.nodes.length = some l := by
  have H := reachable_sound hW
  have main : ∃ l h' nd, shown W.heap v = .arr (l.map .scalar) ∧ (step W (.given x)).1 = { W with heap := h', nodes := W.nodes ++ [nd] } ∧ h'.view nd.ref nd.start nd.len = l ∧
      nd.ref < h'.length ∧ ∀ r, v = .list r → nd.ref = W.heap.length := by
    have e : step W (.given x) = match makeGiven W.heap v with
        | (h, .error e) => ({ W with heap := h }, some e)
        | (h, .ok g) => ({ W with heap := h, nodes := W.nodes ++ [g] }, none) := by
      show (match W.vars[x]? with | none => _ | some v => _) = _
      rw [hx]
      rfl
    rw [e] at ok ⊢
    cases v with
    | none => cases ok
    | scalar a => cases ok
    | arr r s l =>
      by_cases h0 : (W.heap.view r s l).length = 0
      · simp only [makeGiven, h0, if_true] at ok; cases ok
      · refine ⟨W.heap.view r s l, W.heap, ⟨r, s, l, 0⟩, rfl, ?_, rfl, H.vars _ (List.mem_of_getElem? hx) r (by simp [HVal.refs]), by intro r h; cases h⟩
        simp only [makeGiven, h0, if_false]
    | list r =>
      by_cases h0 : (W.heap.cells r).length = 0
      · simp only [makeGiven, h0, if_true] at ok; cases ok
      · refine ⟨W.heap.cells r, W.heap ++ [W.heap.cells r], ⟨W.heap.length, 0, (W.heap.cells r).length, 0⟩, rfl, ?_, ?_, by simp, fun _ _ => rfl⟩
        · simp only [makeGiven, h0, if_false]
        · simp [Heap.view, Heap.cells]
  obtain ⟨l, h', nd, m1, m2, m3, m4, m5⟩ := main
  have hnd : (step W (.given x)).1.nodes[W.nodes.length]? = some nd := by
    rw [m2]
    dsimp only
    rw [List.getElem?_append_right (Nat.le_refl _), Nat.sub_self]; rfl
  have hh : (step W (.given x)).1.heap = h' := by rw [m2]
  have after : ∀ ops, (run (step W (.given x)).1 ops).heap[nd.ref]? = h'[nd.ref]? → givenValues (run (step W (.given x)).1 ops) W.nodes.length = some l := by
    intro ops hr
    obtain ⟨n, hn⟩ := node_run ops hnd
    unfold givenValues
    rw [hn]
    show some _ = some _
    rw [← m3]
    unfold Heap.view
    dsimp only
    rw [cells_congr hr]
  refine ⟨l, m1, after [] (by rw [← hh]; rfl), ?_, ?_⟩
  · intro ops hops
    refine after ops ?_
    have g := grows_run ops (W := (step W (.given x)).1) hops
    rw [hh] at g
    exact g.get m4
  · intro r hr ops hops
    refine after ops ?_
    have A : Apart (step W (.given x)).1 (fun r => r = nd.ref) (fun _ => True) (fun _ => True) (fun g => g ≠ W.nodes.length) := by
      have e5 := m5 r hr
      rw [m2]
      refine ⟨?_, ?_, ?_, ?_, fun _ _ => trivial, fun _ _ => trivial, ?_⟩
      · intro k t hk _ w hw r' hr' hS
        have := H.states t (List.mem_of_getElem? hk) w hw r' hr'
        omega
      · intro y u hy _ r' hr' hS
        have := H.vars u (List.mem_of_getElem? hy) r' hr'
        omega
      · intro g nd' hg hne hS
        dsimp only at hg
        have hlt : g < W.nodes.length := by
          rcases Nat.lt_or_ge g W.nodes.length with h | h
          · exact h
          · rw [List.getElem?_eq_none (by simp; omega)] at hg; cases hg
        rw [List.getElem?_append_left hlt] at hg
        have := H.nodes nd' (List.mem_of_getElem? hg)
        omega
      · intro r' h; rw [h]; exact m4
      · intro g hg
        simp at hg
        omega
    have K := run_kept ops A fun op ho => ⟨fun _ _ => trivial, fun _ _ => trivial, fun g hg e => hops op ho (e ▸ hg)⟩
    rw [K.1 nd.ref rfl, hh]

/-- C129, the code disagrees. A node made from an array is linked to it: a write into the array changes the values the node gives. And sampling several values links the
state to the node, however it was made: here a node made from a list gives 1, 2, 3; three samples are taken and doubled in place in the state; after a reset the node
gives 2, 4, 6. -/
theorem C129_linked_counterexample :
    givenValues (run (start (α := Nat)) [.array [1, 2, 3], .given 0]) 0 = some [1, 2, 3] ∧
    givenValues (run (start (α := Nat)) [.array [1, 2, 3], .given 0, .write 0 0 7]) 0 = some [7, 2, 3] ∧
    givenValues (run (start (α := Nat)) [.list [1, 2, 3], .given 0, .new 3, .compute 0 0 "n".toList "x".toList]) 0 = some [1, 2, 3] ∧
    givenValues (run (start (α := Nat)) [.list [1, 2, 3], .given 0, .new 3, .compute 0 0 "n".toList "x".toList, .get 0 "n".toList "x".toList,
      .write 1 0 2, .write 1 1 4, .write 1 2 6, .reset 0]) 0 = some [2, 4, 6] ∧
    seenParam (run (start (α := Nat)) [.list [1, 2, 3], .given 0, .new 3, .compute 0 0 "n".toList "x".toList, .get 0 "n".toList "x".toList,
      .write 1 0 2, .write 1 1 4, .write 1 2 6, .reset 0, .new 3, .compute 0 1 "n".toList "x".toList]) 1 "n".toList "x".toList = some (.arr [.scalar 2, .scalar 4, .scalar 6]) :=
  ⟨rfl, rfl, rfl, rfl, rfl⟩

/-- The hypotheses of C129 are met by a node made from a list. -/
example : Reachable (run (start (α := Nat)) [.list [1, 2, 3]]) ∧ (run (start (α := Nat)) [.list [1, 2, 3]]).vars[0]? = some (.list 0) ∧
    (step (run (start (α := Nat)) [.list [1, 2, 3]]) (.given 0)).2 = none := ⟨⟨_, rfl⟩, rfl, rfl⟩

end LCL.GraphHeapProps
