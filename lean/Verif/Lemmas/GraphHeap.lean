import Verif.Spec.GraphHeap

/-!
# Lemmas about arrays and references
-/

namespace LCL.GraphHeap
open LCL LCL.GraphHeapSpec

variable {α : Type}

/-- The object a value refers to. -/
def HVal.refs : HVal α → List Nat
  | .arr r _ _ => [r]
  | .list r => [r]
  | _ => []

/-- The state holds the value. -/
def Holds (s : HState α) (v : HVal α) : Prop := ∃ q ∈ s.states, ∃ p ∈ q.2, p.2 = v

/-- The value refers only to objects made between two moments. -/
def Fresh (h h' : Heap α) (v : HVal α) : Prop := ∀ r ∈ v.refs, h.length ≤ r ∧ r < h'.length

/-- Objects were made, none was changed. -/
def Grows (h h' : Heap α) : Prop := ∃ l, h' = h ++ l

theorem Grows.refl (h : Heap α) : Grows h h := ⟨[], by simp⟩

theorem Grows.append (h : Heap α) (l) : Grows h (h ++ l) := ⟨l, rfl⟩

theorem Grows.trans {h h' h'' : Heap α} (a : Grows h h') (b : Grows h' h'') : Grows h h'' := by
  obtain ⟨l, rfl⟩ := a
  obtain ⟨m, rfl⟩ := b
  exact ⟨l ++ m, by simp⟩

theorem Grows.le {h h' : Heap α} (a : Grows h h') : h.length ≤ h'.length := by
  obtain ⟨l, rfl⟩ := a
  simp

theorem Grows.get {h h' : Heap α} (a : Grows h h') {r : Nat} (hr : r < h.length) : h'[r]? = h[r]? := by
  obtain ⟨l, rfl⟩ := a
  exact List.getElem?_append_left hr

theorem Fresh.mono {h0 h h' h1 : Heap α} {v : HVal α} (f : Fresh h h' v) (a : h0.length ≤ h.length) (b : h'.length ≤ h1.length) : Fresh h0 h1 v := fun r hr => by
  have := f r hr
  omega

theorem fresh_noref {h h' : Heap α} {v : HVal α} (e : v.refs = []) : Fresh h h' v := by
  intro r hr; rw [e] at hr; cases hr

theorem fresh_alloc (h : Heap α) (l) : Fresh h (alloc h l).1 (alloc h l).2 := by
  intro r hr
  simp only [alloc, HVal.refs, List.mem_singleton] at hr
  subst hr
  simp [alloc]

/-! ### What is shown -/

theorem cells_congr {h h' : Heap α} {r : Nat} (e : h'[r]? = h[r]?) : h'.cells r = h.cells r := by
  unfold Heap.cells; rw [e]

theorem shown_congr {h h' : Heap α} {v : HVal α} (e : ∀ r ∈ v.refs, h'[r]? = h[r]?) : shown h' v = shown h v := by
  cases v with
  | none => rfl
  | scalar a => rfl
  | arr r s l => simp [shown, Heap.view, cells_congr (e r (by simp [HVal.refs]))]
  | list r => simp [shown, cells_congr (e r (by simp [HVal.refs]))]

theorem seenState_congr {h h' : Heap α} {s : HState α} (e : ∀ v, Holds s v → ∀ r ∈ v.refs, h'[r]? = h[r]?) : seenState h' s = seenState h s := by
  unfold seenState
  congr 1
  apply List.map_congr_left
  intro q hq
  congr 1
  apply List.map_congr_left
  intro p hp
  congr 1
  exact shown_congr (e p.2 ⟨q, hq, p, hp, rfl⟩)

theorem shown_alloc (h : Heap α) (l : List α) : shown (alloc h l).1 (alloc h l).2 = .arr (l.map .scalar) := by
  simp [alloc, shown, Heap.view, Heap.cells]

/-! ### The values of a state after an operation -/

theorem mem_set {κ ν : Type} [DecidableEq κ] {d : Dict κ ν} {k : κ} {v : ν} {q : κ × ν} (h : q ∈ d.set k v) : q ∈ d ∨ q = (k, v) := by
  induction d with
  | nil => simpa [Dict.set] using h
  | cons p d ih =>
    obtain ⟨k', v'⟩ := p
    unfold Dict.set at h
    split at h
    · rename_i e
      rcases List.mem_cons.1 h with h | h
      · right; rw [h, e]
      · left; exact List.mem_cons_of_mem _ h
    · rcases List.mem_cons.1 h with h | h
      · left; rw [h]; exact List.mem_cons_self
      · rcases ih h with h | h
        · left; exact List.mem_cons_of_mem _ h
        · right; exact h

theorem holds_register {s : HState α} {node : Name} {v} (h : Holds (register s node) v) : Holds s v := by
  obtain ⟨q, hq, p, hp, e⟩ := h
  unfold register at hq
  split at hq
  · exact ⟨q, hq, p, hp, e⟩
  · rcases mem_set hq with h | h
    · exact ⟨q, h, p, hp, e⟩
    · rw [h] at hp; cases hp

theorem countVar_states (s : HState α) (node var) : (countVar s node var).states = s.states := by
  unfold countVar; split <;> rfl

theorem countVar_fixed (s : HState α) (node var) : (countVar s node var).fixed = s.fixed := by
  unfold countVar; split <;> rfl

theorem countVar_samples (s : HState α) (node var) : (countVar s node var).numSamples = s.numSamples := by
  unfold countVar; split <;> rfl

theorem register_samples (s : HState α) (node) : (register s node).numSamples = s.numSamples := by
  unfold register; split <;> rfl

theorem holds_get {s : HState α} {node : Name} {p : Name × HVal α} (h : p ∈ (s.states.get? node).getD []) : Holds s p.2 := by
  cases e : s.states.get? node with
  | none => rw [e] at h; cases h
  | some d => rw [e] at h; exact ⟨_, Dict.mem_of_get? e, p, h, rfl⟩

theorem normalise_spec {h : Heap α} {n : Nat} {v : HVal α} {force : Bool} {h' : Heap α} {v' : HVal α} (e : normalise h n v force = .ok (h', v')) :
    Grows h h' ∧ (v' = v ∨ Fresh h h' v') := by
  unfold normalise at e
  split at e
  · cases e; exact ⟨Grows.refl _, Or.inl rfl⟩
  · cases v with
    | none => cases e
    | scalar a => cases e; exact ⟨Grows.append _ _, Or.inr (fresh_alloc _ _)⟩
    | arr r s l =>
      dsimp only at e
      split at e
      · cases e
      · split at e
        · cases e; exact ⟨Grows.append _ _, Or.inr (fresh_alloc _ _)⟩
        · cases e; exact ⟨Grows.refl _, Or.inl rfl⟩
    | list r =>
      dsimp only at e
      split at e
      · cases e
      · cases e; exact ⟨Grows.append _ _, Or.inr (fresh_alloc _ _)⟩

theorem set_spec (h : Heap α) (s : HState α) (node var : Name) (v : HVal α) (force fixed : Bool) :
    Grows h (set h s node var v force fixed).1 ∧
    ∀ w, Holds (set h s node var v force fixed).2.1 w → Holds s w ∨ w = v ∨ Fresh h (set h s node var v force fixed).1 w := by
  have hs2 : ∀ w, Holds (countVar (register s node) node var) w → Holds s w := by
    intro w hw
    obtain ⟨q, hq, p, hp, e⟩ := hw
    rw [countVar_states] at hq
    exact holds_register ⟨q, hq, p, hp, e⟩
  unfold set
  split
  · exact ⟨Grows.refl _, fun w hw => Or.inl hw⟩
  · dsimp only
    split
    · exact ⟨Grows.refl _, fun w hw => Or.inl (hs2 w hw)⟩
    · split
      · exact ⟨Grows.refl _, fun w hw => Or.inl (hs2 w hw)⟩
      · split
        · exact ⟨Grows.refl _, fun w hw => Or.inl (hs2 w hw)⟩
        · rename_i h' v' e
          obtain ⟨g, hv⟩ := normalise_spec e
          have key : ∀ w, (∃ q ∈ (countVar (register s node) node var).states.set node ((((register s node).states.get? node).getD []).set var v'), ∃ p ∈ q.2, p.2 = w) →
              Holds s w ∨ w = v ∨ Fresh h h' w := by
            rintro w ⟨q, hq, p, hp, ew⟩
            rcases mem_set hq with hq | hq
            · exact Or.inl (hs2 w ⟨q, hq, p, hp, ew⟩)
            · rw [hq] at hp
              rcases mem_set hp with hp | hp
              · left; rw [← ew]; exact holds_register (holds_get hp)
              · rw [hp] at ew
                rw [← ew]
                right; exact hv
          split <;> exact ⟨g, fun w hw => key w hw⟩

theorem setAll_spec (force fixed : Bool) (node : Name) : ∀ (l : List (Name × HVal α)) (h : Heap α) (s : HState α),
    Grows h (setAll force fixed node h s l).1 ∧
    ∀ w, Holds (setAll force fixed node h s l).2.1 w → Holds s w ∨ (∃ p ∈ l, w = p.2) ∨ Fresh h (setAll force fixed node h s l).1 w
  | [], h, s => ⟨Grows.refl _, fun w hw => Or.inl hw⟩
  | (var, v) :: rest, h, s => by
    have h1 := set_spec h s node var v force fixed
    unfold setAll
    rcases hs : set h s node var v force fixed with ⟨h', s', e⟩
    rw [hs] at h1
    dsimp only at h1
    cases e with
    | some e =>
      refine ⟨h1.1, fun w hw => ?_⟩
      rcases h1.2 w hw with a | a | a
      · exact Or.inl a
      · exact Or.inr (Or.inl ⟨_, List.mem_cons_self, a⟩)
      · exact Or.inr (Or.inr a)
    | none =>
      dsimp only
      have h2 := setAll_spec force fixed node rest h' s'
      refine ⟨h1.1.trans h2.1, fun w hw => ?_⟩
      rcases h2.2 w hw with a | ⟨p, hp, a⟩ | a
      · rcases h1.2 w a with a | a | a
        · exact Or.inl a
        · exact Or.inr (Or.inl ⟨_, List.mem_cons_self, a⟩)
        · exact Or.inr (Or.inr (a.mono (Nat.le_refl _) h2.1.le))
      · exact Or.inr (Or.inl ⟨p, List.mem_cons_of_mem _ hp, a⟩)
      · exact Or.inr (Or.inr (a.mono h1.1.le (Nat.le_refl _)))

theorem setNested_spec (force fixed : Bool) : ∀ (l : List (Name × Dict Name (HVal α))) (h : Heap α) (s : HState α),
    Grows h (setNested force fixed h s l).1 ∧
    ∀ w, Holds (setNested force fixed h s l).2.1 w → Holds s w ∨ (∃ q ∈ l, ∃ p ∈ q.2, p.2 = w) ∨ Fresh h (setNested force fixed h s l).1 w
  | [], h, s => ⟨Grows.refl _, fun w hw => Or.inl hw⟩
  | (node, vars) :: rest, h, s => by
    have h1 := setAll_spec force fixed node vars h s
    unfold setNested
    rcases hs : setAll force fixed node h s vars with ⟨h', s', e⟩
    rw [hs] at h1
    dsimp only at h1
    have step : ∀ w, Holds s' w → Holds s w ∨ (∃ q ∈ (node, vars) :: rest, ∃ p ∈ q.2, p.2 = w) ∨ Fresh h h' w := by
      intro w hw
      rcases h1.2 w hw with a | ⟨p, hp, a⟩ | a
      · exact Or.inl a
      · exact Or.inr (Or.inl ⟨_, List.mem_cons_self, p, hp, a.symm⟩)
      · exact Or.inr (Or.inr a)
    cases e with
    | some e => exact ⟨h1.1, step⟩
    | none =>
      dsimp only
      have h2 := setNested_spec force fixed rest h' s'
      refine ⟨h1.1.trans h2.1, fun w hw => ?_⟩
      rcases h2.2 w hw with a | ⟨q, hq, a⟩ | a
      · rcases step w a with a | a | a
        · exact Or.inl a
        · exact Or.inr (Or.inl a)
        · exact Or.inr (Or.inr (a.mono (Nat.le_refl _) h2.1.le))
      · exact Or.inr (Or.inl ⟨q, List.mem_cons_of_mem _ hq, a⟩)
      · exact Or.inr (Or.inr (a.mono h1.1.le (Nat.le_refl _)))

theorem update_spec (h : Heap α) (s g : HState α) (force fixed : Bool) :
    Grows h (update h s g force fixed).1 ∧
    ∀ w, Holds (update h s g force fixed).2.1 w → Holds s w ∨ Holds g w ∨ Fresh h (update h s g force fixed).1 w := by
  unfold update
  split
  · exact ⟨Grows.refl _, fun w hw => Or.inl hw⟩
  · exact setNested_spec force fixed g.states h s

/-! ### Copies -/

theorem copyVal_arr (n : Nat) (h : Heap α) (r s l : Nat) : copyVal n h (.arr r s l) = if n = 1 then (h, .arr r s l) else alloc h (h.view r s l) := rfl

theorem copyVal_list (n : Nat) (h : Heap α) (r : Nat) : copyVal n h (.list r) = if n = 1 then (h, .list r) else (h ++ [h.cells r], .list h.length) := rfl

theorem copyVal_spec (n : Nat) (h : Heap α) (v : HVal α) : Grows h (copyVal n h v).1 ∧ (copyVal n h v).2 = v ∨
    n ≠ 1 ∧ Grows h (copyVal n h v).1 ∧ Fresh h (copyVal n h v).1 (copyVal n h v).2 := by
  cases v with
  | none => left; exact ⟨Grows.refl _, rfl⟩
  | scalar a => left; exact ⟨Grows.refl _, rfl⟩
  | arr r s l =>
    rw [copyVal_arr]
    split
    · left; exact ⟨Grows.refl _, rfl⟩
    · right; exact ⟨‹_›, Grows.append _ _, fresh_alloc _ _⟩
  | list r =>
    rw [copyVal_list]
    split
    · left; exact ⟨Grows.refl _, rfl⟩
    · right
      refine ⟨‹_›, Grows.append _ _, ?_⟩
      intro r hr
      simp only [HVal.refs, List.mem_singleton] at hr
      subst hr
      simp

theorem copyVal_grows (n : Nat) (h : Heap α) (v : HVal α) : Grows h (copyVal n h v).1 := by
  rcases copyVal_spec n h v with ⟨a, -⟩ | ⟨-, a, -⟩ <;> exact a

/-- With several samples the copy refers to new objects only. -/
theorem copyVal_fresh {n : Nat} (hn : n ≠ 1) (h : Heap α) (v : HVal α) : Fresh h (copyVal n h v).1 (copyVal n h v).2 := by
  cases v with
  | none => exact fresh_noref rfl
  | scalar a => exact fresh_noref rfl
  | arr r s l => rw [copyVal_arr, if_neg hn]; exact fresh_alloc _ _
  | list r =>
    rw [copyVal_list]
    rw [if_neg hn]
    intro r hr
    simp only [HVal.refs, List.mem_singleton] at hr
    subst hr
    simp

theorem copyVal_shown (n : Nat) (h : Heap α) (v : HVal α) : shown (copyVal n h v).1 (copyVal n h v).2 = shown h v := by
  cases v with
  | none => rfl
  | scalar a => rfl
  | arr r s l =>
    rw [copyVal_arr]
    split
    · rfl
    · rw [shown_alloc]; rfl
  | list r =>
    rw [copyVal_list]
    split
    · rfl
    · simp [shown, Heap.cells]

theorem copyVars_grows (n : Nat) : ∀ (d : Dict Name (HVal α)) (h : Heap α), Grows h (copyVars n h d).1
  | [], h => Grows.refl _
  | (k, v) :: rest, h => (copyVal_grows n h v).trans (copyVars_grows n rest _)

theorem copyNodes_grows (n : Nat) : ∀ (d : Dict Name (Dict Name (HVal α))) (h : Heap α), Grows h (copyNodes n h d).1
  | [], h => Grows.refl _
  | (k, v) :: rest, h => (copyVars_grows n v h).trans (copyNodes_grows n rest _)

theorem copyVars_vals (n : Nat) : ∀ (d : Dict Name (HVal α)) (h : Heap α), ∀ p ∈ (copyVars n h d).2, (∃ p' ∈ d, p'.2 = p.2) ∨ Fresh h (copyVars n h d).1 p.2
  | [], h, p, hp => by cases hp
  | (k, v) :: rest, h, p, hp => by
    rcases List.mem_cons.1 hp with e | hp
    · subst e
      rcases copyVal_spec n h v with ⟨-, a⟩ | ⟨-, -, a⟩
      · left; exact ⟨(k, v), List.mem_cons_self, a.symm⟩
      · right; exact a.mono (Nat.le_refl _) (copyVars_grows n rest _).le
    · rcases copyVars_vals n rest _ p hp with ⟨p', hp', e⟩ | a
      · left; exact ⟨p', List.mem_cons_of_mem _ hp', e⟩
      · right; exact a.mono (copyVal_grows n h v).le (Nat.le_refl _)

theorem copyVars_fresh {n : Nat} (hn : n ≠ 1) : ∀ (d : Dict Name (HVal α)) (h : Heap α), ∀ p ∈ (copyVars n h d).2, Fresh h (copyVars n h d).1 p.2
  | [], h, p, hp => by cases hp
  | (k, v) :: rest, h, p, hp => by
    rcases List.mem_cons.1 hp with e | hp
    · subst e
      exact (copyVal_fresh hn h v).mono (Nat.le_refl _) (copyVars_grows n rest _).le
    · exact (copyVars_fresh hn rest _ p hp).mono (copyVal_grows n h v).le (Nat.le_refl _)

theorem copyNodes_vals (n : Nat) : ∀ (d : Dict Name (Dict Name (HVal α))) (h : Heap α), ∀ q ∈ (copyNodes n h d).2, ∀ p ∈ q.2,
    (∃ q' ∈ d, ∃ p' ∈ q'.2, p'.2 = p.2) ∨ Fresh h (copyNodes n h d).1 p.2
  | [], h, q, hq, p, hp => by cases hq
  | (k, v) :: rest, h, q, hq, p, hp => by
    rcases List.mem_cons.1 hq with e | hq
    · subst e
      rcases copyVars_vals n v h p hp with ⟨p', hp', e⟩ | a
      · left; exact ⟨(k, v), List.mem_cons_self, p', hp', e⟩
      · right; exact a.mono (Nat.le_refl _) (copyNodes_grows n rest _).le
    · rcases copyNodes_vals n rest _ q hq p hp with ⟨q', hq', e⟩ | a
      · left; exact ⟨q', List.mem_cons_of_mem _ hq', e⟩
      · right; exact a.mono (copyVars_grows n v h).le (Nat.le_refl _)

theorem copyNodes_fresh {n : Nat} (hn : n ≠ 1) : ∀ (d : Dict Name (Dict Name (HVal α))) (h : Heap α), ∀ q ∈ (copyNodes n h d).2, ∀ p ∈ q.2, Fresh h (copyNodes n h d).1 p.2
  | [], h, q, hq, p, hp => by cases hq
  | (k, v) :: rest, h, q, hq, p, hp => by
    rcases List.mem_cons.1 hq with e | hq
    · subst e
      exact (copyVars_fresh hn v h p hp).mono (Nat.le_refl _) (copyNodes_grows n rest _).le
    · exact (copyNodes_fresh hn rest _ q hq p hp).mono (copyVars_grows n v h).le (Nat.le_refl _)

theorem copy_spec (h : Heap α) (s : HState α) : Grows h (copy h s).1 ∧ ∀ w, Holds (copy h s).2 w → Holds s w ∨ Fresh h (copy h s).1 w := by
  refine ⟨copyNodes_grows _ _ _, ?_⟩
  rintro w ⟨q, hq, p, hp, rfl⟩
  exact copyNodes_vals _ _ _ q hq p hp

theorem copy_fresh (h : Heap α) {s : HState α} (hn : s.numSamples ≠ 1) : ∀ w, Holds (copy h s).2 w → Fresh h (copy h s).1 w := by
  rintro w ⟨q, hq, p, hp, rfl⟩
  exact copyNodes_fresh hn _ _ q hq p hp

/-- Every reference of the value is to an existing object. -/
def Below (n : Nat) (v : HVal α) : Prop := ∀ r ∈ v.refs, r < n

theorem Below.mono {n m : Nat} {v : HVal α} (b : Below n v) (h : n ≤ m) : Below m v := fun r hr => Nat.lt_of_lt_of_le (b r hr) h

theorem Fresh.below {h h' : Heap α} {v : HVal α} (f : Fresh h h' v) : Below h'.length v := fun r hr => (f r hr).2

theorem shown_grows {h h' : Heap α} {v : HVal α} (g : Grows h h') (b : Below h.length v) : shown h' v = shown h v := shown_congr fun r hr => g.get (b r hr)

theorem copyVal_below {n : Nat} {h : Heap α} {v : HVal α} (b : Below h.length v) : Below (copyVal n h v).1.length (copyVal n h v).2 := by
  rcases copyVal_spec n h v with ⟨g, e⟩ | ⟨-, -, a⟩
  · rw [e]; exact b.mono g.le
  · exact a.below

theorem copyVars_shown (n : Nat) : ∀ (d : Dict Name (HVal α)) (h h' : Heap α), (∀ p ∈ d, Below h.length p.2) → Grows (copyVars n h d).1 h' →
    (copyVars n h d).2.map (fun p => (p.1, shown h' p.2)) = d.map fun p => (p.1, shown h p.2)
  | [], h, h', b, g => rfl
  | (k, v) :: rest, h, h', b, g => by
    have g1 := copyVal_grows n h v
    have g2 := (copyVars_grows n rest (copyVal n h v).1).trans g
    have hv := b (k, v) List.mem_cons_self
    have ih := copyVars_shown n rest (copyVal n h v).1 h' (fun p hp => (b p (List.mem_cons_of_mem _ hp)).mono g1.le) g
    show (k, shown h' (copyVal n h v).2) :: (copyVars n (copyVal n h v).1 rest).2.map _ = _
    rw [ih, shown_grows g2 (copyVal_below hv), copyVal_shown]
    show _ = (k, shown h v) :: rest.map _
    congr 1
    apply List.map_congr_left
    intro p hp
    rw [shown_grows g1 (b p (List.mem_cons_of_mem _ hp))]

theorem copyNodes_shown (n : Nat) : ∀ (d : Dict Name (Dict Name (HVal α))) (h h' : Heap α), (∀ q ∈ d, ∀ p ∈ q.2, Below h.length p.2) → Grows (copyNodes n h d).1 h' →
    (copyNodes n h d).2.map (fun q => (q.1, q.2.map fun p => (p.1, shown h' p.2))) = d.map fun q => (q.1, q.2.map fun p => (p.1, shown h p.2))
  | [], h, h', b, g => rfl
  | (k, v) :: rest, h, h', b, g => by
    have g1 := copyVars_grows n v h
    have g2 := (copyNodes_grows n rest (copyVars n h v).1).trans g
    have ih := copyNodes_shown n rest (copyVars n h v).1 h' (fun q hq p hp => (b q (List.mem_cons_of_mem _ hq) p hp).mono g1.le) g
    show (k, (copyVars n h v).2.map _) :: (copyNodes n (copyVars n h v).1 rest).2.map _ = _
    rw [ih, copyVars_shown n v h h' (fun p hp => b (k, v) List.mem_cons_self p hp) g2]
    show _ = (k, v.map _) :: rest.map _
    congr 1
    apply List.map_congr_left
    intro q hq
    congr 1
    apply List.map_congr_left
    intro p hp
    rw [shown_grows g1 (b q (List.mem_cons_of_mem _ hq) p hp)]

/-- All the state's references are to existing objects. -/
def StateBelow (n : Nat) (s : HState α) : Prop := ∀ w, Holds s w → Below n w

theorem copy_seen (h : Heap α) {s : HState α} (b : StateBelow h.length s) : seenState (copy h s).1 (copy h s).2 = seenState h s := by
  unfold seenState copy
  dsimp only
  congr 1
  exact copyNodes_shown _ _ _ _ (fun q hq p hp => b p.2 ⟨q, hq, p, hp, rfl⟩) (Grows.refl _)

/-! ### Samples -/

theorem mapM_mem {β γ : Type} {f : β → Except Err γ} : ∀ {l : List β} {l' : List γ}, l.mapM f = .ok l' → ∀ y ∈ l', ∃ x ∈ l, f x = .ok y
  | [], l', h, y, hy => by cases h; cases hy
  | x :: l, l', h, y, hy => by
    rw [List.mapM_cons] at h
    cases hx : f x with
    | error e => rw [hx] at h; cases h
    | ok z =>
      rw [hx] at h
      cases hl : l.mapM f with
      | error e => rw [hl] at h; cases h
      | ok l2 =>
        rw [hl] at h
        cases h
        rcases List.mem_cons.1 hy with e | hy
        · subst e; exact ⟨x, List.mem_cons_self, hx⟩
        · obtain ⟨x', hx', e⟩ := mapM_mem hl y hy
          exact ⟨x', List.mem_cons_of_mem _ hx', e⟩

theorem row_norefs {h : Heap α} {v w : HVal α} {i : Nat} (e : row h v i = .ok w) : w.refs = [] := by
  cases v with
  | none => cases e
  | scalar a => cases e
  | arr r s l =>
    unfold row at e
    dsimp only at e
    split at e <;> cases e
    rfl
  | list r =>
    unfold row at e
    dsimp only at e
    split at e <;> cases e
    rfl

theorem rowDict_norefs {h : Heap α} {d d' : Dict Name (HVal α)} {i : Nat} (e : rowDict h d i = .ok d') : ∀ p ∈ d', p.2.refs = [] := by
  intro p hp
  obtain ⟨x, -, hx⟩ := mapM_mem e p hp
  obtain ⟨k, v⟩ := x
  dsimp only at hx
  cases hr : row h v i with
  | error e => rw [hr] at hx; cases hx
  | ok w => rw [hr] at hx; cases hx; exact row_norefs hr

theorem extract_spec {h : Heap α} {s s' : HState α} {k : Int} (e : extractSample h s k = .ok s') :
    (∀ w, Holds s' w → Holds s w ∨ w.refs = []) ∧ (s.numSamples ≠ 1 → ∀ w, Holds s' w → w.refs = []) := by
  unfold extractSample at e
  split at e
  · cases e
  · cases hm : s.states.mapM (fun (n, vars) => do
      let d ← if s.numSamples = 1 then pure vars else rowDict h vars k.toNat
      return ((n, d) : Name × Dict Name (HVal α))) with
    | error e' => rw [hm] at e; cases e
    | ok st =>
      rw [hm] at e
      cases e
      have key : ∀ q ∈ st, ∃ q' ∈ s.states, (s.numSamples = 1 ∧ q.2 = q'.2) ∨ (s.numSamples ≠ 1 ∧ ∀ p ∈ q.2, p.2.refs = []) := by
        intro q hq
        obtain ⟨q', hq', e⟩ := mapM_mem hm q hq
        obtain ⟨n, vars⟩ := q'
        refine ⟨_, hq', ?_⟩
        dsimp only at e
        by_cases h1 : s.numSamples = 1
        · rw [if_pos h1] at e
          cases e
          exact Or.inl ⟨h1, rfl⟩
        · rw [if_neg h1] at e
          cases hr : rowDict h vars k.toNat with
          | error e' => rw [hr] at e; cases e
          | ok d =>
            rw [hr] at e
            cases e
            exact Or.inr ⟨h1, rowDict_norefs hr⟩
      constructor
      · rintro w ⟨q, hq, p, hp, rfl⟩
        obtain ⟨q', hq', ⟨-, e⟩ | ⟨-, e⟩⟩ := key q hq
        · left; exact ⟨q', hq', p, e ▸ hp, rfl⟩
        · right; exact e p hp
      · rintro hn w ⟨q, hq, p, hp, rfl⟩
        obtain ⟨q', hq', ⟨e, -⟩ | ⟨-, e⟩⟩ := key q hq
        · exact absurd e hn
        · exact e p hp

end LCL.GraphHeap
