import Verif.Lemmas.Positions
import Verif.Props.Nodes1

/-!
# Properties C11 (graph positions) and C15 (automatic names)
-/

namespace LCL.NodeProps
open LCL LCL.NodeSpec LCL.NodeLemmas
variable {α σ : Type}

theorem links_of_ok {H : Heap α σ} (hG : GraphOK H) : ∀ a b, Reads H a b → b < H.length := by
  rintro a b ⟨nd, p, st, h1, h2, h3⟩
  apply hG.links nd (List.mem_of_getElem? h1) (p, st) h2 b
  rcases h3 with ⟨q, h3⟩ | ⟨q, h3⟩ <;> simp only [h3] <;> rfl

theorem idxOf?_nodup {l : List Nat} (h : l.Nodup) (k : Nat) (hk : k < l.length) :
    l.idxOf? l[k] = some k := by
  induction l generalizing k with
  | nil => simp at hk
  | cons a l ih =>
    rw [List.nodup_cons] at h
    cases k with
    | zero => simp [List.idxOf?_cons]
    | succ k =>
      simp only [List.length_cons, Nat.add_lt_add_iff_right] at hk
      simp only [List.getElem_cons_succ, List.idxOf?_cons]
      have hne : ¬ (a == l[k]) = true := by
        simp only [beq_iff_eq]; intro e; exact h.1 (e ▸ List.getElem_mem hk)
      rw [if_neg hne, ih h.2 k hk]; rfl

/-- What `set_graph_positions` leaves behind, for the node list `order` it computed. -/
theorem assign_get (H : Heap α σ) (order : List NodeId) (id : NodeId) :
    (Heap.assign H order)[id]? = H[id]?.map fun nd =>
      match order.idxOf? id with
      | some k => ({ nd with pos := some k } : PNode α σ).updateString
      | none => nd := by
  unfold Heap.assign
  rw [List.getElem?_mapIdx]
  cases H[id]? with
  | none => rfl
  | some nd => cases h : order.idxOf? id <;> simp

/-- C11. On every graph whose links point to existing nodes, cycles and sharing allowed,
`set_graph_positions` terminates without error; the reachable nodes get the positions
`0 … K-1`, each exactly once, the root gets 0; a node's name becomes its label or its automatic
name with that position; nothing else about any node changes, and unreachable nodes are untouched. -/
theorem C11_positions {H : Heap α σ} (hG : GraphOK H) (root : NodeId) (objects : List NodeId)
    (hroots : ∀ x ∈ root :: objects, x < H.length) :
    ∃ H' K, Heap.setPositions H (root :: objects) = .ok H' ∧ H'.length = H.length ∧
      (∃ nd, H'[root]? = some nd ∧ nd.pos = some 0) ∧
      (∀ id nd, Reach H (root :: objects) id → H[id]? = some nd → ∃ k, k < K ∧
        H'[id]? = some { nd with
          pos := some k
          str := match nd.label with
            | some l => l
            | none => nd.autoName (some k) }) ∧
      (∀ k, k < K → ∃ id nd, Reach H (root :: objects) id ∧ H'[id]? = some nd ∧ nd.pos = some k) ∧
      (∀ a b na nb, Reach H (root :: objects) a → Reach H (root :: objects) b → H'[a]? = some na →
        H'[b]? = some nb → na.pos = nb.pos → a = b) ∧
      (∀ id, ¬ Reach H (root :: objects) id → H'[id]? = H[id]?) := by
  obtain ⟨order, h1, h2, h3, h4⟩ := visitAll_ok (links_of_ok hG) (root :: objects) hroots
  have hidx : ∀ id, Reach H (root :: objects) id → ∃ k, ∃ hk : k < order.length, order[k] = id ∧
      order.idxOf? id = some k := by
    intro id hr
    obtain ⟨k, hk, e⟩ := List.getElem_of_mem ((h3 id).2 hr)
    exact ⟨k, hk, e, by rw [← e]; exact idxOf?_nodup h2 k hk⟩
  have hget : ∀ id nd, H[id]? = some nd → ∀ k, order.idxOf? id = some k →
      (Heap.assign H order)[id]? = some { nd with
          pos := some k
          str := match nd.label with
            | some l => l
            | none => nd.autoName (some k) } := by
    intro id nd hnd k hk
    rw [assign_get, hnd, hk]
    simp only [Option.map_some, PNode.updateString]
    cases nd.label <;> rfl
  have hroot0 : order.idxOf? root = some 0 := by
    -- the first visited node is the root
    unfold Heap.visitAll at h1
    rw [List.foldlM_cons] at h1
    have hlt : root < H.length := hroots root (by simp)
    have hv : ∃ l, Heap.visit H (H.length + 1) root [] = .ok (root :: l) := by
      obtain ⟨s', g1, g2, g3⟩ := visit_ok (links_of_ok hG) (R := fun _ => True) (fun _ _ _ _ => trivial)
        (H.length + 1) root [] (by simp) (by simp) hlt trivial (by omega)
      -- the visit starts from the list `[root]`
      have : ∃ l, s' = root :: l := by
        unfold Heap.visit at g1
        rw [if_neg (by simp), List.getElem?_eq_getElem hlt] at g1
        simp only [List.nil_append] at g1
        have ext : ∀ (rest : List (Name × Setter α)) (cur out : List NodeId),
            (∃ l, cur = root :: l) → cur.Nodup → (∀ x ∈ cur, x < H.length) →
            (∀ q ∈ rest, ∀ d, q.2.src.dep = some d → d < H.length) →
            rest.foldlM (fun seen q =>
              match q.2.src.dep with
              | some d => if d ≠ root then Heap.visit H H.length d seen else .ok seen
              | none => .ok seen) cur = .ok out → ∃ l, out = root :: l := by
          intro rest
          induction rest with
          | nil => intro cur out h _ _ _ e; cases e; exact h
          | cons q rest ih =>
            intro cur out h hn hb hd e
            rw [List.foldlM_cons] at e
            cases hq : q.2.src.dep with
            | none =>
              rw [hq] at e
              exact ih cur out h hn hb (fun x hx => hd x (List.mem_cons_of_mem _ hx)) e
            | some d =>
              rw [hq] at e
              simp only at e
              by_cases hdr : d ≠ root
              · rw [if_pos hdr] at e
                obtain ⟨l, rfl⟩ := h
                have hlen := length_le_of_bound hn hb
                simp only [List.length_cons] at hlen
                obtain ⟨c2, f1, f2, _⟩ := visit_ok (links_of_ok hG) (R := fun _ => True)
                  (fun _ _ _ _ => trivial) H.length d (root :: l) hn hb (hd q (by simp) d hq) trivial
                  (by simp only [List.length_cons]; omega)
                rw [f1] at e
                obtain ⟨n, en⟩ := f2.ext
                exact ih c2 out ⟨l ++ n, by rw [en]; rfl⟩ f2.nodup f2.bound
                  (fun x hx => hd x (List.mem_cons_of_mem _ hx)) e
              · rw [if_neg hdr] at e
                exact ih cur out h hn hb (fun x hx => hd x (List.mem_cons_of_mem _ hx)) e
        refine ext _ [root] s' ⟨[], rfl⟩ (by simp) (by simp; exact hlt) ?_ g1
        intro q hq d hd
        exact hG.links _ (List.getElem_mem hlt) q hq d hd
      obtain ⟨l, rfl⟩ := this
      exact ⟨l, g1⟩
    obtain ⟨l, hv⟩ := hv
    rw [hv] at h1
    obtain ⟨s', g1, g2, g3⟩ := visit_ok (links_of_ok hG) (R := fun _ => True) (fun _ _ _ _ => trivial)
        (H.length + 1) root [] (by simp) (by simp) hlt trivial (by omega)
    rw [hv] at g1; cases g1
    obtain ⟨s'', f1, f2, _⟩ := visitAll_fold (links_of_ok hG) (R := fun _ => True) (fun _ _ _ _ => trivial)
      objects (root :: l) (fun x hx => ⟨hroots x (List.mem_cons_of_mem _ hx), trivial⟩) g2.nodup g2.bound
    have : (Except.ok s'' : Except Err (List NodeId)) = .ok order := by rw [← f1, ← h1]; rfl
    cases this
    obtain ⟨n, en⟩ := f2.ext
    rw [en]; simp [List.idxOf?_cons]
  refine ⟨Heap.assign H order, order.length, ?_, by simp [Heap.assign], ?_, ?_, ?_, ?_, ?_⟩
  · unfold Heap.setPositions
    rw [h1]; rfl
  · have hlt : root < H.length := hroots root (by simp)
    exact ⟨_, hget root H[root] (List.getElem?_eq_getElem hlt) 0 hroot0, rfl⟩
  · intro id nd hr hnd
    obtain ⟨k, hk, _, e2⟩ := hidx id hr
    exact ⟨k, hk, hget id nd hnd k e2⟩
  · intro k hk
    have hr : Reach H (root :: objects) order[k] := (h3 _).1 (List.getElem_mem hk)
    have hlt := h4 _ (List.getElem_mem hk)
    exact ⟨order[k], _, hr, hget _ _ (List.getElem?_eq_getElem hlt) k (idxOf?_nodup h2 k hk), rfl⟩
  · intro a b na nb ha hb hna hnb hpos
    obtain ⟨k, hk, ea, ea2⟩ := hidx a ha
    obtain ⟨l, hl, eb, eb2⟩ := hidx b hb
    have hla : a < H.length := h4 a ((h3 a).2 ha)
    have hlb : b < H.length := h4 b ((h3 b).2 hb)
    rw [hget a _ (List.getElem?_eq_getElem hla) k ea2] at hna
    rw [hget b _ (List.getElem?_eq_getElem hlb) l eb2] at hnb
    cases hna; cases hnb
    simp only [Option.some.injEq] at hpos
    subst hpos
    rw [← ea, ← eb]
  · intro id hnr
    rw [assign_get]
    have : order.idxOf? id = none := by
      rw [List.idxOf?_eq_none_iff]; intro h; exact hnr ((h3 id).1 h)
    rw [this]
    cases H[id]? <;> rfl

/-- The dependencies depend only on the setters. -/
theorem visit_congr {H1 H2 : Heap α σ} (h : H1.map (·.setters) = H2.map (·.setters)) :
    ∀ fuel id seen, Heap.visit H1 fuel id seen = Heap.visit H2 fuel id seen := by
  have hg : ∀ id : Nat, H1[id]?.map (·.setters) = H2[id]?.map (·.setters) := by
    intro id
    rw [← List.getElem?_map, ← List.getElem?_map, h]
  intro fuel
  induction fuel with
  | zero => intros; rfl
  | succ fuel ih =>
    intro id seen
    unfold Heap.visit
    split
    · rfl
    · have := hg id
      cases h1 : H1[id]? with
      | none =>
        cases h2 : H2[id]? with
        | none => rfl
        | some n2 => rw [h1, h2] at this; cases this
      | some n1 =>
        cases h2 : H2[id]? with
        | none => rw [h1, h2] at this; cases this
        | some n2 =>
          rw [h1, h2] at this
          simp only [Option.map_some, Option.some.injEq] at this
          simp only [this, ih]

/-- C11 (history independence). The positions do not depend on earlier positions, names or labels:
two graphs with the same parameter sources get the same positions. -/
theorem C11_history_independent {H1 H2 : Heap α σ} (h : H1.map (·.setters) = H2.map (·.setters))
    (roots : List NodeId) {H1' H2' : Heap α σ} (h1 : Heap.setPositions H1 roots = .ok H1')
    (h2 : Heap.setPositions H2 roots = .ok H2') (id : NodeId) (n1 n2 : PNode α σ)
    (hr : ∃ order, Heap.visitAll H1 roots = .ok order ∧ id ∈ order)
    (hn1 : H1'[id]? = some n1) (hn2 : H2'[id]? = some n2) : n1.pos = n2.pos := by
  have hlen : H1.length = H2.length := by
    have := congrArg List.length h; simpa using this
  have hva : Heap.visitAll H1 roots = Heap.visitAll H2 roots := by
    unfold Heap.visitAll
    rw [hlen]
    congr 1
    funext seen r
    exact visit_congr h _ _ _
  obtain ⟨order, ho, hmem⟩ := hr
  unfold Heap.setPositions at h1 h2
  rw [← hva] at h2
  rw [ho] at h1 h2
  cases h1; cases h2
  rw [assign_get] at hn1 hn2
  obtain ⟨k, hk⟩ : ∃ k, order.idxOf? id = some k := by
    cases hi : order.idxOf? id with
    | none => rw [List.idxOf?_eq_none_iff] at hi; exact absurd hmem hi
    | some k => exact ⟨k, rfl⟩
  rw [hk] at hn1 hn2
  obtain ⟨m1, _, rfl⟩ := Option.map_eq_some_iff.1 hn1
  obtain ⟨m2, _, rfl⟩ := Option.map_eq_some_iff.1 hn2
  rfl

/-- C15 (automatic names). After `set_graph_positions`, two different reachable nodes without
labels never have the same name, whatever their classes and functions are called. -/
theorem C15_unlabelled_names_distinct {H H' : Heap α σ} (hG : GraphOK H) (root : NodeId)
    (objects : List NodeId) (hroots : ∀ x ∈ root :: objects, x < H.length)
    (hset : Heap.setPositions H (root :: objects) = .ok H') (a b : NodeId) (na nb : PNode α σ)
    (ha : Reach H (root :: objects) a) (hb : Reach H (root :: objects) b)
    (hna : H'[a]? = some na) (hnb : H'[b]? = some nb) (hla : na.label = none) (hlb : nb.label = none)
    (hab : a ≠ b) : na.str ≠ nb.str := by
  obtain ⟨H2, K, e1, elen, _, e3, _, e5, _⟩ := C11_positions hG root objects hroots
  rw [hset] at e1; cases e1
  have hlt : ∀ {x : Nat} {n : PNode α σ}, H'[x]? = some n → x < H.length := by
    intro x n hx
    have := (List.getElem?_eq_some_iff.1 hx).1
    omega
  have name : ∀ {x : Nat} {n : PNode α σ}, Reach H (root :: objects) x → H'[x]? = some n → n.label = none →
      ∃ k pre, n.pos = some k ∧ n.str = pre ++ '_' :: decimal k := by
    intro x n hr hx hl
    obtain ⟨m, hm⟩ : ∃ m, H[x]? = some m := ⟨_, List.getElem?_eq_getElem (hlt hx)⟩
    obtain ⟨k, _, hk⟩ := e3 x m hr hm
    rw [hx] at hk
    have hk := Option.some.inj hk
    subst hk
    simp only at hl
    simp only [hl]
    unfold PNode.autoName
    simp only
    split
    · exact ⟨k, _, rfl, rfl⟩
    · exact ⟨k, _, rfl, rfl⟩
  obtain ⟨k, pa, hpa, hsa⟩ := name ha hna hla
  obtain ⟨l, pb, hpb, hsb⟩ := name hb hnb hlb
  intro hs
  rw [hsa, hsb] at hs
  have := suffix_inj hs
  subst this
  exact hab (e5 a b na nb ha hb hna hnb (hpa.trans hpb.symm))

end LCL.NodeProps
