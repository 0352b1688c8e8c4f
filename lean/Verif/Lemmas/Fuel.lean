import Verif.Lemmas.Nodes

/-!
# The recursion bound of the sampling model is never the reason for a result
-/

namespace LCL.NodeLemmas
open LCL LCL.NodeSpec LCL.GraphSpec LCL.GraphLemmas LCL.Heap
variable {α σ : Type}

/-- `seen_nodes` maps names of existing nodes to these nodes. -/
def SeenOK (H : Heap α σ) (s : Dict Name NodeId) : Prop :=
  s.keys.Nodup ∧ ∀ n id, (n, id) ∈ s → ∃ nd, H[id]? = some nd ∧ nd.str = n

theorem SeenOK.length_le {H : Heap α σ} {s : Dict Name NodeId} (h : SeenOK H s) :
    s.length ≤ H.length := by
  have hnd : (s.map (·.2)).Nodup := by
    obtain ⟨h1, h2⟩ := h
    induction s with
    | nil => simp
    | cons q s ih =>
      simp only [Dict.keys_cons, List.nodup_cons] at h1
      simp only [List.map_cons, List.nodup_cons]
      refine ⟨?_, ih h1.2 (fun n id hm => h2 n id (List.mem_cons_of_mem _ hm))⟩
      intro hm
      obtain ⟨q', hq', e⟩ := List.mem_map.1 hm
      obtain ⟨nd, e1, e2⟩ := h2 q.1 q.2 (by simp)
      obtain ⟨nd', e3, e4⟩ := h2 q'.1 q'.2 (List.mem_cons_of_mem _ hq')
      rw [e, e1] at e3; cases e3
      apply h1.1
      rw [← e2, e4]
      exact List.mem_map.2 ⟨q', hq', rfl⟩
  have hb : ∀ x ∈ s.map (·.2), x < H.length := by
    intro x hx
    obtain ⟨q, hq, rfl⟩ := List.mem_map.1 hx
    obtain ⟨nd, e1, _⟩ := h.2 q.1 q.2 hq
    exact (List.getElem?_eq_some_iff.1 e1).1
  have := List.Nodup.length_le_of_subset (l₂ := List.range H.length) hnd
    (fun x hx => by simpa using hb x hx)
  simpa using this

theorem SeenOK.set {H : Heap α σ} {s : Dict Name NodeId} (h : SeenOK H s) {id : NodeId}
    {nd : PNode α σ} (hid : H[id]? = some nd) (hn : s.get? nd.str = none) :
    SeenOK H (s.set nd.str id) ∧ (s.set nd.str id).length = s.length + 1 := by
  have hk : nd.str ∉ s.keys := (Dict.get?_eq_none_iff _ _).1 hn
  refine ⟨⟨Dict.nodup_set h.1 _ _, ?_⟩, by rw [Dict.length_set, if_neg hk]⟩
  intro n j hm
  have := Dict.get?_of_mem (Dict.nodup_set h.1 _ _) hm
  rw [Dict.get?_set] at this
  split at this
  · rename_i e; cases this; exact ⟨nd, hid, e⟩
  · exact h.2 n j (Dict.mem_of_get? this)

/-- Runs at least as far as `L` seen nodes. -/
def Far (H : Heap α σ) (L : Nat) (r : Run α σ) : Prop := SeenOK H r.seen ∧ L ≤ r.seen.length

theorem write_seen {r r' : Run α σ} {n p : Name} {v : Val α} (h : Heap.write r n p v = .ok r') :
    r'.seen = r.seen := by
  unfold Heap.write at h
  split at h
  · cases h; rfl
  · cases h

theorem saveAll_seen (nd : PNode α σ) : ∀ (l : List (Name × Val α)) (r r' : Run α σ),
    Heap.saveAll nd r l = .ok r' → r'.seen = r.seen := by
  intro l
  induction l with
  | nil => intro r r' h; cases h; rfl
  | cons q l ih =>
    intro r r' h
    unfold Heap.saveAll at h
    simp only [bind, Except.bind] at h
    cases hw : Heap.write r nd.str q.1 q.2 with
    | error e => rw [hw] at h; cases h
    | ok r1 => rw [hw] at h; rw [ih r1 r' h, write_seen hw]

theorem saveResults_seen {nd : PNode α σ} {r r' : Run α σ} {v : Val α}
    (h : Heap.saveResults nd r v = .ok r') : r'.seen = r.seen := by
  unfold Heap.saveResults at h
  split at h
  · exact write_seen h
  · split at h
    · split at h
      · cases h
      · exact saveAll_seen nd _ _ _ h
    · cases h

theorem compute_seen {id : NodeId} {nd : PNode α σ} {r r' : Run α σ}
    (h : Heap.compute id nd r [] = .ok r') : r'.seen = r.seen := by
  unfold Heap.compute at h
  split at h
  · split at h
    · cases h
    · simp only [bind, Except.bind] at h
      split at h
      · cases h
      · split at h
        · cases h
        · rw [saveResults_seen h]
  · cases h; rfl

theorem stepSetter_far {H : Heap α σ} {L : Nat} {rec : NodeId → Run α σ → Except Err (Run α σ)}
    (hrec : ∀ d r r', Far H L r → rec d r = .ok r' → Far H L r') {id : NodeId} {nd : PNode α σ}
    {acc res : Run α σ × Bool} {q : Name × Setter α} (h : Far H L acc.1)
    (hs : Heap.stepSetter H rec id nd acc q = .ok res) : Far H L res.1 := by
  unfold Heap.stepSetter at hs
  simp only [bind, Except.bind] at hs
  split at hs
  · cases hs
  · rename_i r hr
    have hr' : Far H L r := by
      unfold Heap.visitDep at hr
      split at hr
      · split at hr
        · exact hrec _ _ _ h hr
        · cases hr; exact h
      · cases hr; exact h
    have hw : ∀ v r2, Heap.write r nd.str q.1 v = .ok r2 → Far H L r2 := by
      intro v r2 hw; unfold Far; rw [write_seen hw]; exact hr'
    split at hs
    · split at hs
      · cases hs
      · rename_i r2 h2; cases hs; exact hw _ _ h2
    · split at hs
      · cases hs
      · split at hs
        · cases hs
        · split at hs
          · cases hs
          · rename_i r2 h2; cases hs; exact hw _ _ h2
    · split at hs
      · cases hs
      · split at hs
        · cases hs
        · split at hs
          · cases hs
          · rename_i r2 h2; cases hs; exact hw _ _ h2
    · cases hs; exact hr'
    · cases hs

theorem sampleNode_far {H : Heap α σ} : ∀ (fuel : Nat) (L : Nat) (id : NodeId) (r r' : Run α σ),
    Far H L r → Heap.sampleNode H fuel id r = .ok r' → Far H L r' := by
  intro fuel
  induction fuel with
  | zero => intro L id r r' _ h; cases h
  | succ fuel ih =>
    intro L id r r' hf h
    unfold Heap.sampleNode at h
    split at h
    · cases h
    · rename_i nd hid
      split at h
      · split at h
        · cases h
        · cases h; exact hf
      · rename_i hn
        obtain ⟨g1, g2⟩ := hf.1.set hid hn
        simp only [bind, Except.bind] at h
        split at h
        · cases h
        · rename_i res hres
          have h1 : Far H L res.1 := by
            have hgen : ∀ (l : List (Name × Setter α)) (acc res : Run α σ × Bool), Far H L acc.1 →
                l.foldlM (Heap.stepSetter H (Heap.sampleNode H fuel) id nd) acc = .ok res → Far H L res.1 := by
              intro l
              induction l with
              | nil => intro acc res ha h; cases h; exact ha
              | cons q l ihl =>
                intro acc res ha h
                rw [List.foldlM_cons] at h
                cases hq : Heap.stepSetter H (Heap.sampleNode H fuel) id nd acc q with
                | error e => rw [hq] at h; cases h
                | ok acc' =>
                  rw [hq] at h
                  exact ihl acc' res (stepSetter_far (fun d r r' => ih L d r r') ha hq) h
            exact hgen _ _ _ ⟨g1, by simp only [g2]; have := hf.2; omega⟩ hres
          split at h
          · unfold Far; rw [compute_seen h]; exact h1
          · cases h; exact h1

/-- Any two fuel values larger than the number of nodes not seen yet give the same result. -/
theorem sampleNode_fuel {H : Heap α σ} : ∀ (f1 f2 : Nat) (id : NodeId) (r : Run α σ), SeenOK H r.seen →
    H.length - r.seen.length < f1 → H.length - r.seen.length < f2 →
    Heap.sampleNode H f1 id r = Heap.sampleNode H f2 id r := by
  intro f1
  induction f1 with
  | zero => intro f2 id r _ h; omega
  | succ f1 ih =>
    intro f2 id r hs h1 h2
    cases f2 with
    | zero => omega
    | succ f2 =>
      unfold Heap.sampleNode
      cases hid : H[id]? with
      | none => rfl
      | some nd =>
        simp only
        cases hn : r.seen.get? nd.str with
        | some j => rfl
        | none =>
          obtain ⟨g1, g2⟩ := hs.set hid hn
          have hgl := g1.length_le
          have hstep : ∀ (acc : Run α σ × Bool) (q : Name × Setter α), Far H (r.seen.length + 1) acc.1 →
              Heap.stepSetter H (Heap.sampleNode H f1) id nd acc q =
                Heap.stepSetter H (Heap.sampleNode H f2) id nd acc q := by
            intro acc q ha
            unfold Heap.stepSetter Heap.visitDep
            cases hd : q.2.src.dep with
            | none => rfl
            | some d =>
              simp only
              have hlt := ha.2
              rw [ih f2 d acc.1 ha.1 (by omega) (by omega)]
          have hfold : ∀ (l : List (Name × Setter α)) (acc : Run α σ × Bool), Far H (r.seen.length + 1) acc.1 →
              l.foldlM (Heap.stepSetter H (Heap.sampleNode H f1) id nd) acc =
                l.foldlM (Heap.stepSetter H (Heap.sampleNode H f2) id nd) acc := by
            intro l
            induction l with
            | nil => intro acc _; rfl
            | cons q l ihl =>
              intro acc ha
              rw [List.foldlM_cons, List.foldlM_cons, ← hstep acc q ha]
              cases hq : Heap.stepSetter H (Heap.sampleNode H f1) id nd acc q with
              | error e => rfl
              | ok acc' =>
                exact ihl acc' (stepSetter_far (fun d r r' => sampleNode_far f1 _ d r r') ha hq)
          have := hfold nd.setters ({ r with seen := r.seen.set nd.str id }, false)
            ⟨g1, by simp only [g2]; omega⟩
          simp only [this]

end LCL.NodeLemmas
