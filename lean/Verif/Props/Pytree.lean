import Verif.Lemmas.Nodes
import Verif.Spec.NodeMore

/-!
# Property C17: gradient pytrees
-/

namespace LCL.PytreeProps
open LCL LCL.GraphSpec LCL.GraphLemmas LCL.NodeSpec LCL.NodeLemmas
variable {α σ : Type}

abbrev Tree (α : Type) := Dict Name (Dict Name (Val α))

/-- The entry `d` holds exactly the gradient parameters of `l`. -/
def EntryOK (s : GState α) (str : Name) (l : List (Name × Setter α)) (d : Dict Name (Val α)) : Prop :=
  ∀ p v, d.get? p = some v ↔ (∃ st, (p, st) ∈ l ∧ st.allowGradient = true) ∧ look s str p = some v

/-- A finished node of the tree. -/
def Complete (H : Heap α σ) (s : GState α) (root : NodeId) (t : Tree α) (m : Name) : Prop :=
  ∃ id nd d, GradReach H root id ∧ H[id]? = some nd ∧ nd.str = m ∧ t.get? m = some d ∧
    EntryOK s m nd.setters d ∧
    ∀ p st b, (p, st) ∈ nd.setters → st.allowGradient = false → st.src.dep = some b →
      ∃ bn e, H[b]? = some bn ∧ t.get? bn.str = some e

/-- `t'` extends `t`, everything new being finished. -/
structure Grows (H : Heap α σ) (s : GState α) (root : NodeId) (t t' : Tree α) : Prop where
  old : ∀ m d, t.get? m = some d → t'.get? m = some d
  new : ∀ m, t.get? m = none → ∀ d, t'.get? m = some d → Complete H s root t' m

theorem Complete.mono {H : Heap α σ} {s : GState α} {root : NodeId} {t t' : Tree α} {m : Name}
    (h : Complete H s root t m) (hg : ∀ m d, t.get? m = some d → t'.get? m = some d) :
    Complete H s root t' m := by
  obtain ⟨id, nd, d, h1, h2, h3, h4, h5, h6⟩ := h
  refine ⟨id, nd, d, h1, h2, h3, hg _ _ h4, h5, ?_⟩
  intro p st b hp ha hb
  obtain ⟨bn, e, e1, e2⟩ := h6 p st b hp ha hb
  exact ⟨bn, e, e1, hg _ _ e2⟩

/-- State of the loop over the setters of one node. -/
structure Loop (H : Heap α σ) (s : GState α) (root : NodeId) (nd : PNode α σ) (t0 : Tree α)
    (done : List (Name × Setter α)) (t : Tree α) : Prop where
  old : ∀ m d, m ≠ nd.str → t0.get? m = some d → t.get? m = some d
  own : ∃ d, t.get? nd.str = some d ∧ EntryOK s nd.str done d
  new : ∀ m, m ≠ nd.str → t0.get? m = none → ∀ d, t.get? m = some d → Complete H s root t m
  deps : ∀ p st b, (p, st) ∈ done → st.allowGradient = false → st.src.dep = some b →
      ∃ bn e, H[b]? = some bn ∧ t.get? bn.str = some e

theorem putLeaf_get (t : Tree α) (node name : Name) (v : Val α) (m : Name) :
    (Heap.putLeaf t node name v).get? m =
      if node = m then some (((t.get? node).getD []).set name v) else t.get? m := by
  unfold Heap.putLeaf; rw [Dict.get?_set]

theorem pytree_spec {H : Heap α σ} (hk : ∀ nd ∈ H, nd.setters.keys.Nodup) (s : GState α) (root : NodeId) :
    ∀ (fuel : Nat) (id : NodeId) (t t' : Tree α), GradReach H root id →
      Heap.pytreeAux H s fuel id t = .ok t' →
      Grows H s root t t' ∧ ∃ nd d, H[id]? = some nd ∧ t'.get? nd.str = some d := by
  intro fuel
  induction fuel with
  | zero => intro id t t' _ h; cases h
  | succ fuel ih =>
    intro id t t' hr h
    unfold Heap.pytreeAux at h
    split at h
    · cases h
    · rename_i nd hid
      split at h
      · cases h
      · split at h
        · rename_i hh
          cases h
          refine ⟨⟨fun _ _ h => h, fun m h1 d h2 => by rw [h1] at h2; cases h2⟩, nd, ?_⟩
          unfold Dict.has at hh
          obtain ⟨d, hd⟩ := Option.isSome_iff_exists.1 hh
          exact ⟨d, hid, hd⟩
        · rename_i hh
          have hnone : t.get? nd.str = none := by
            unfold Dict.has at hh; simpa using hh
          have hnd := hk nd (List.mem_of_getElem? hid)
          -- the loop
          have hloop : ∀ (rest done : List (Name × Setter α)) (u u' : Tree α), done ++ rest = nd.setters →
              Loop H s root nd t done u →
              rest.foldlM (Heap.pytreeStep s (Heap.pytreeAux H s fuel) nd) u = .ok u' →
              Loop H s root nd t nd.setters u' := by
            intro rest
            induction rest with
            | nil => intro done u u' e hL h; cases h; simp at e; subst e; exact hL
            | cons q rest ihr =>
              intro done u u' e hL h
              rw [List.foldlM_cons] at h
              have hq : q ∈ nd.setters := by rw [← e]; simp
              have hqn : ∀ x ∈ done, x.1 ≠ q.1 := by
                intro x hx heq
                have : (done.map (·.1) ++ q.1 :: rest.map (·.1)).Nodup := by
                  rw [← e] at hnd
                  simpa [Dict.keys] using hnd
                rw [List.nodup_append] at this
                exact this.2.2 x.1 (List.mem_map.2 ⟨x, hx, rfl⟩) q.1 (by simp) heq
              cases hs : Heap.pytreeStep s (Heap.pytreeAux H s fuel) nd u q with
              | error e => rw [hs] at h; cases h
              | ok u1 =>
                rw [hs] at h
                refine ihr (done ++ [q]) u1 u' (by rw [← e]; simp) ?_ h
                unfold Heap.pytreeStep at hs
                obtain ⟨q1, q2⟩ := q
                simp only at hs hqn
                split at hs
                · rename_i hg
                  split at hs
                  · rename_i v hv
                    cases hs
                    have hlv := lookParam_ok hv
                    have hmono : ∀ m d, u.get? m = some d → ∃ d', (Heap.putLeaf u nd.str q1 v).get? m = some d' := by
                      intro m d hm; rw [putLeaf_get]; split
                      · exact ⟨_, rfl⟩
                      · exact ⟨d, hm⟩
                    refine ⟨?_, ?_, ?_, ?_⟩
                    · intro m d hm hd
                      rw [putLeaf_get, if_neg (fun e => hm e.symm)]
                      exact hL.old m d hm hd
                    · obtain ⟨d, hd, hok⟩ := hL.own
                      refine ⟨d.set q1 v, by rw [putLeaf_get, if_pos rfl, hd]; rfl, ?_⟩
                      intro p w
                      rw [Dict.get?_set]
                      by_cases hp : q1 = p
                      · subst hp
                        rw [if_pos rfl]
                        constructor
                        · intro h; cases h; exact ⟨⟨q2, by simp, hg⟩, hlv⟩
                        · rintro ⟨_, h⟩; rw [hlv] at h; exact h
                      · rw [if_neg hp, hok p w]
                        constructor
                        · rintro ⟨⟨st, h1, h2⟩, h3⟩; exact ⟨⟨st, List.mem_append_left _ h1, h2⟩, h3⟩
                        · rintro ⟨⟨st, h1, h2⟩, h3⟩
                          rcases List.mem_append.1 h1 with h1 | h1
                          · exact ⟨⟨st, h1, h2⟩, h3⟩
                          · simp at h1; exact absurd h1.1.symm hp
                    · intro m hm h1 d hd
                      rw [putLeaf_get, if_neg (fun e => hm e.symm)] at hd
                      obtain ⟨id', nd', d', f1, f2, f3, f4, f5, f6⟩ := hL.new m hm h1 d hd
                      refine ⟨id', nd', d', f1, f2, f3, ?_, f5, ?_⟩
                      · rw [putLeaf_get, if_neg (fun e => hm e.symm)]; exact f4
                      · intro p st b g1 g2 g3
                        obtain ⟨bn, e', e1, e2⟩ := f6 p st b g1 g2 g3
                        obtain ⟨d', hd'⟩ := hmono _ _ e2
                        exact ⟨bn, d', e1, hd'⟩
                    · intro p st b hm ha hb
                      rcases List.mem_append.1 hm with hm | hm
                      · obtain ⟨bn, e', e1, e2⟩ := hL.deps p st b hm ha hb
                        obtain ⟨d', hd'⟩ := hmono _ _ e2
                        exact ⟨bn, d', e1, hd'⟩
                      · simp at hm; obtain ⟨_, rfl⟩ := hm; rw [hg] at ha; cases ha
                  · cases hs
                · rename_i hg
                  have hg' : q2.allowGradient = false := by simpa using hg
                  have hown : ∀ d, EntryOK s nd.str done d → EntryOK s nd.str (done ++ [(q1, q2)]) d := by
                    intro d hok p w
                    rw [hok p w]
                    constructor
                    · rintro ⟨⟨st, h1, h2⟩, h3⟩; exact ⟨⟨st, List.mem_append_left _ h1, h2⟩, h3⟩
                    · rintro ⟨⟨st, h1, h2⟩, h3⟩
                      rcases List.mem_append.1 h1 with h1 | h1
                      · exact ⟨⟨st, h1, h2⟩, h3⟩
                      · simp at h1; obtain ⟨_, rfl⟩ := h1; rw [hg'] at h2; cases h2
                  split at hs
                  · rename_i b hb
                    obtain ⟨g1, bn, eb, g2, g3⟩ := ih b u u1 (GradReach.step hr hid hq hg' hb) hs
                    refine ⟨?_, ?_, ?_, ?_⟩
                    · intro m d hm hd; exact g1.old _ _ (hL.old m d hm hd)
                    · obtain ⟨d, hd, hok⟩ := hL.own
                      exact ⟨d, g1.old _ _ hd, hown d hok⟩
                    · intro m hm h1 d hd
                      cases hu : u.get? m with
                      | none => exact g1.new m hu d hd
                      | some d' => exact (hL.new m hm h1 d' hu).mono g1.old
                    · intro p st b' hm ha hb'
                      rcases List.mem_append.1 hm with hm | hm
                      · obtain ⟨bn', e', e1, e2⟩ := hL.deps p st b' hm ha hb'
                        exact ⟨bn', e', e1, g1.old _ _ e2⟩
                      · simp at hm; obtain ⟨_, rfl⟩ := hm
                        rw [hb] at hb'; cases hb'
                        exact ⟨bn, eb, g2, g3⟩
                  · rename_i hb
                    cases hs
                    refine ⟨hL.old, ?_, hL.new, ?_⟩
                    · obtain ⟨d, hd, hok⟩ := hL.own; exact ⟨d, hd, hown d hok⟩
                    · intro p st b' hm ha hb'
                      rcases List.mem_append.1 hm with hm | hm
                      · exact hL.deps p st b' hm ha hb'
                      · simp at hm; obtain ⟨_, rfl⟩ := hm; rw [hb] at hb'; cases hb'
          have h0 : Loop H s root nd t [] (t.set nd.str []) := by
            refine ⟨?_, ⟨[], by simp, ?_⟩, ?_, by simp⟩
            · intro m d hm hd; rw [Dict.get?_set, if_neg (fun e => hm e.symm)]; exact hd
            · intro p v; simp
            · intro m hm h1 d hd; rw [Dict.get?_set, if_neg (fun e => hm e.symm), h1] at hd; cases hd
          have hL := hloop nd.setters [] _ t' (by simp) h0 h
          obtain ⟨d, hd, hok⟩ := hL.own
          refine ⟨⟨?_, ?_⟩, nd, d, hid, hd⟩
          · intro m d' hm
            by_cases he : m = nd.str
            · subst he; rw [hnone] at hm; cases hm
            · exact hL.old m d' he hm
          · intro m hm d' hd'
            by_cases he : m = nd.str
            · subst he; exact ⟨id, nd, d, hr, hid, rfl, hd, hok, hL.deps⟩
            · exact hL.new m he hm d' hd'

/-- C17. When the nodes concerned have different names (as sampling enforces), a pytree that is
built holds, for exactly the nodes reached through parameters that do not allow gradients, exactly
their parameters that allow gradients, with their values in the given state. -/
theorem C17_pytree {H : Heap α σ} (hk : ∀ nd ∈ H, nd.setters.keys.Nodup) (s : GState α)
    (hs : Reachable s) (root : NodeId)
    (hnames : ∀ a b na nb, GradReach H root a → GradReach H root b → H[a]? = some na →
      H[b]? = some nb → na.str = nb.str → a = b)
    (t : Dict Name (Dict Name (Val α))) (h : Heap.buildPytree H s root = .ok t) :
    IsGradTree H s root t := by
  obtain ⟨hg, nd0, d0, e0, e1⟩ := pytree_spec hk s root (H.length + 2) root [] t GradReach.root h
  have hread : ∀ a b, readParam s a b = look s a b := read_eq_look _ (reachable_wf hs).toShape
  have hall : ∀ id, GradReach H root id → ∃ nd d, H[id]? = some nd ∧ t.get? nd.str = some d := by
    intro id hr
    induction hr with
    | root => exact ⟨nd0, d0, e0, e1⟩
    | @step a b nd p st hra ha hp hgr hb ih =>
      obtain ⟨nd', d, f1, f2⟩ := ih
      rw [ha] at f1; cases f1
      obtain ⟨id', nd', d', g1, g2, g3, g4, g5, g6⟩ := hg.new nd.str rfl d f2
      have := hnames id' a nd' nd g1 hra g2 ha g3
      subst this
      rw [ha] at g2; cases g2
      obtain ⟨bn, e, h1, h2⟩ := g6 p st b hp hgr hb
      exact ⟨bn, e, h1, h2⟩
  refine ⟨?_, ?_⟩
  · intro m
    constructor
    · rintro ⟨d, hd⟩
      obtain ⟨id, nd, _, g1, g2, g3, _⟩ := hg.new m rfl d hd
      exact ⟨id, nd, g1, g2, g3⟩
    · rintro ⟨id, nd, g1, g2, rfl⟩
      obtain ⟨nd', d, f1, f2⟩ := hall id g1
      rw [g2] at f1; cases f1
      exact ⟨d, f2⟩
  · intro id nd d hr hid hd p v
    obtain ⟨id', nd', d', g1, g2, g3, g4, g5, _⟩ := hg.new nd.str rfl d hd
    have := hnames id' id nd' nd g1 hr g2 hid g3
    subst this
    rw [hid] at g2; cases g2
    rw [hd] at g4; cases g4
    rw [hread]
    exact g5 p v

/-- C17 (un-numbered graphs raise). -/
theorem C17_unnumbered_raises (H : Heap α σ) (s : GState α) (root : NodeId) (nd : PNode α σ)
    (hid : H[root]? = some nd) (hp : nd.pos = none) :
    Heap.buildPytree H s root = .error .valueError := by
  unfold Heap.buildPytree Heap.pytreeAux
  simp [hid, hp]

theorem countP_lt {β : Type} {p q : β → Bool} (himp : ∀ x, p x = true → q x = true) :
    ∀ (l : List β) (x : β), x ∈ l → q x = true → p x = false → l.countP p < l.countP q := by
  intro l
  induction l with
  | nil => intro x h; cases h
  | cons y l ih =>
    intro x hx h1 h2
    have hle : l.countP p ≤ l.countP q := List.countP_mono_left (fun x _ => himp x)
    rcases List.mem_cons.1 hx with rfl | hx
    · rw [List.countP_cons_of_pos h1, List.countP_cons_of_neg (by simp [h2])]; omega
    · have := ih x hx h1 h2
      rw [List.countP_cons, List.countP_cons]
      have h3 := himp y
      cases hp : p y <;> cases hq : q y <;> simp_all <;> omega

/-- Nodes whose name is not in the tree yet. -/
def todo (H : Heap α σ) (t : Tree α) : Nat := List.countP (fun nd => !(t.has nd.str)) H

theorem has_of_get {t : Tree α} {m : Name} {d : Dict Name (Val α)} (h : t.get? m = some d) : t.has m = true := by
  unfold Dict.has; rw [h]; rfl

theorem pytree_live {H : Heap α σ} (s : GState α) (root : NodeId)
    (hready : ∀ id, GradReach H root id → ∃ nd, H[id]? = some nd ∧ nd.pos ≠ none ∧
      ∀ p st, (p, st) ∈ nd.setters → st.allowGradient = true → ∃ v, look s nd.str p = some v) :
    ∀ (fuel : Nat) (id : NodeId) (t : Tree α), GradReach H root id → todo H t < fuel →
      ∃ t', Heap.pytreeAux H s fuel id t = .ok t' ∧ ∀ m, t.has m = true → t'.has m = true := by
  intro fuel
  induction fuel with
  | zero => intro id t _ h; omega
  | succ fuel ih =>
    intro id t hr hf
    obtain ⟨nd, hid, hpos, hval⟩ := hready id hr
    unfold Heap.pytreeAux
    simp only [hid, hpos, if_false]
    by_cases hh : t.has nd.str = true
    · rw [if_pos hh]; exact ⟨t, rfl, fun _ h => h⟩
    · rw [if_neg hh]
      have hset : ∀ m, t.has m = true → (t.set nd.str []).has m = true := by
        intro m hm; rw [Dict.has_iff] at hm ⊢; exact (Dict.mem_keys_set _ _ _ _).2 (Or.inr hm)
      have hlt : todo H (t.set nd.str []) < todo H t := by
        refine countP_lt ?_ H nd (List.mem_of_getElem? hid) ?_ ?_
        · intro x hx
          cases h : t.has x.str with
          | false => rfl
          | true => rw [hset _ h] at hx; cases hx
        · simpa using hh
        · have : (t.set nd.str []).has nd.str = true := by
            rw [Dict.has_iff]; exact (Dict.mem_keys_set _ _ _ _).2 (Or.inl rfl)
          simp [this]
      have hloop : ∀ (rest : List (Name × Setter α)) (u : Tree α), (∀ q ∈ rest, q ∈ nd.setters) →
          (∀ m, (t.set nd.str []).has m = true → u.has m = true) →
          ∃ u', rest.foldlM (Heap.pytreeStep s (Heap.pytreeAux H s fuel) nd) u = .ok u' ∧
            ∀ m, u.has m = true → u'.has m = true := by
        intro rest
        induction rest with
        | nil => intro u _ _; exact ⟨u, rfl, fun _ h => h⟩
        | cons q rest ihr =>
          intro u hq hu
          have hstep : ∃ u1, Heap.pytreeStep s (Heap.pytreeAux H s fuel) nd u q = .ok u1 ∧
              ∀ m, u.has m = true → u1.has m = true := by
            unfold Heap.pytreeStep
            by_cases hg : q.2.allowGradient = true
            · obtain ⟨v, hv⟩ := hval q.1 q.2 (hq q (by simp)) hg
              rw [if_pos hg, lookParam_of_look hv]
              refine ⟨_, rfl, ?_⟩
              intro m hm; rw [Dict.has_iff] at hm ⊢
              exact (Dict.mem_keys_set _ _ _ _).2 (Or.inr hm)
            · rw [if_neg hg]
              cases hb : q.2.src.dep with
              | none => exact ⟨u, rfl, fun _ h => h⟩
              | some b =>
                refine ih b u (GradReach.step hr hid (hq q (by simp)) (by simpa using hg) hb) ?_
                have : todo H u ≤ todo H (t.set nd.str []) := by
                  refine List.countP_mono_left ?_
                  intro x _ hx
                  cases h : (t.set nd.str []).has x.str with
                  | false => rfl
                  | true => rw [hu _ h] at hx; cases hx
                omega
          obtain ⟨u1, h1, h2⟩ := hstep
          obtain ⟨u', h3, h4⟩ := ihr u1 (fun x hx => hq x (List.mem_cons_of_mem _ hx)) (fun m hm => h2 m (hu m hm))
          refine ⟨u', ?_, fun m hm => h4 m (h2 m hm)⟩
          rw [List.foldlM_cons, h1]; exact h3
      obtain ⟨u', h1, h2⟩ := hloop nd.setters (t.set nd.str []) (fun _ h => h) (fun _ h => h)
      exact ⟨u', h1, fun m hm => h2 m (hset m hm)⟩

/-- C17 (it is always built). If every node concerned exists and is numbered, and its gradient
parameters have values in the state, `build_pytree` returns. -/
theorem C17_succeeds {H : Heap α σ} (s : GState α) (hs : Reachable s) (root : NodeId)
    (hready : ∀ id, GradReach H root id → ∃ nd, H[id]? = some nd ∧ nd.pos ≠ none ∧
      ∀ p st, (p, st) ∈ nd.setters → st.allowGradient = true → ∃ v, readParam s nd.str p = some v) :
    ∃ t, Heap.buildPytree H s root = .ok t := by
  have hread : ∀ a b, readParam s a b = look s a b := read_eq_look _ (reachable_wf hs).toShape
  obtain ⟨t, h, _⟩ := pytree_live s root
    (fun id hr => by
      obtain ⟨nd, h1, h2, h3⟩ := hready id hr
      exact ⟨nd, h1, h2, fun p st hp hg => by
        obtain ⟨v, hv⟩ := h3 p st hp hg
        exact ⟨v, by rw [← hread]; exact hv⟩⟩)
    (H.length + 2) root [] GradReach.root (by
      have : todo H ([] : Tree α) ≤ H.length := List.countP_le_length
      omega)
  exact ⟨t, h⟩

end LCL.PytreeProps
