import Verif.Spec.Nodes

/-! # Lemmas about graph positions and node names -/

namespace LCL.NodeLemmas
open LCL LCL.NodeSpec
variable {α σ : Type}

theorem dep_iff_reads {H : Heap α σ} {a b : NodeId} {nd : PNode α σ} (hid : H[a]? = some nd) :
    Reads H a b ↔ ∃ q ∈ nd.setters, q.2.src.dep = some b := by
  constructor
  · rintro ⟨nd', p, st, h1, h2, h3⟩
    rw [hid] at h1; cases h1
    refine ⟨(p, st), h2, ?_⟩
    rcases h3 with ⟨q, h3⟩ | ⟨q, h3⟩ <;> simp only [h3] <;> rfl
  · rintro ⟨q, h1, h2⟩
    refine ⟨nd, q.1, q.2, hid, h1, ?_⟩
    cases hs : q.2.src with
    | modelParam d q' => rw [hs] at h2; cases h2; exact Or.inl ⟨q', rfl⟩
    | funcNode d q' => rw [hs] at h2; cases h2; exact Or.inr ⟨q', rfl⟩
    | undefined => rw [hs] at h2; cases h2
    | const v => rw [hs] at h2; cases h2
    | computeOut o => rw [hs] at h2; cases h2

/-- What a visit achieves. -/
structure Visited (H : Heap α σ) (R : NodeId → Prop) (seen seen' : List NodeId) : Prop where
  ext : ∃ new, seen' = seen ++ new
  nodup : seen'.Nodup
  bound : ∀ x ∈ seen', x < H.length
  reach : ∀ x ∈ seen', x ∈ seen ∨ R x
  closed : ∀ x ∈ seen', x ∉ seen → ∀ d, Reads H x d → d ∈ seen'

theorem Visited.refl {H : Heap α σ} {R : NodeId → Prop} {seen : List NodeId} (h1 : seen.Nodup)
    (h2 : ∀ x ∈ seen, x < H.length) : Visited H R seen seen :=
  ⟨⟨[], by simp⟩, h1, h2, fun _ h => Or.inl h, fun _ h h' => absurd h h'⟩

theorem Visited.trans {H : Heap α σ} {R : NodeId → Prop} {a b c : List NodeId}
    (h1 : Visited H R a b) (h2 : Visited H R b c) : Visited H R a c := by
  obtain ⟨n1, e1⟩ := h1.ext
  obtain ⟨n2, e2⟩ := h2.ext
  refine ⟨⟨n1 ++ n2, by rw [e2, e1, List.append_assoc]⟩, h2.nodup, h2.bound, ?_, ?_⟩
  · intro x hx
    rcases h2.reach x hx with h | h
    · exact h1.reach x h
    · exact Or.inr h
  · intro x hx hxa d hd
    by_cases hb : x ∈ b
    · have := h1.closed x hb hxa d hd
      rw [e2]; exact List.mem_append_left _ this
    · exact h2.closed x hx hb d hd

theorem Visited.mem {H : Heap α σ} {R : NodeId → Prop} {a b : List NodeId}
    (h : Visited H R a b) {x : NodeId} (hx : x ∈ a) : x ∈ b := by
  obtain ⟨n, e⟩ := h.ext
  rw [e]; exact List.mem_append_left _ hx

theorem length_le_of_bound {H : Heap α σ} {l : List NodeId} (h1 : l.Nodup)
    (h2 : ∀ x ∈ l, x < H.length) : l.length ≤ H.length := by
  have := h1.length_le_of_subset (l₂ := List.range H.length) (fun x hx => List.mem_range.2 (h2 x hx))
  simpa using this

theorem visit_ok {H : Heap α σ} (hlinks : ∀ a b, Reads H a b → b < H.length) {R : NodeId → Prop}
    (hR : ∀ a b, R a → Reads H a b → R b) :
    ∀ fuel id seen, seen.Nodup → (∀ x ∈ seen, x < H.length) → id < H.length → R id →
      H.length - seen.length < fuel →
      ∃ seen', Heap.visit H fuel id seen = .ok seen' ∧ Visited H R seen seen' ∧ id ∈ seen' := by
  intro fuel
  induction fuel with
  | zero => intro id seen _ _ _ _ h; omega
  | succ fuel ih =>
    intro id seen hnd hb hid hRid hfuel
    unfold Heap.visit
    by_cases hs : id ∈ seen
    · rw [if_pos hs]; exact ⟨seen, rfl, Visited.refl hnd hb, hs⟩
    · rw [if_neg hs]
      have hget : H[id]? = some H[id] := List.getElem?_eq_getElem hid
      rw [hget]
      simp only
      -- the loop
      have hnd1 : (seen ++ [id]).Nodup := by
        rw [List.nodup_append]
        refine ⟨hnd, by simp, ?_⟩
        intro a ha b hb' e
        simp at hb'; subst hb'; subst e; exact hs ha
      have hb1 : ∀ x ∈ seen ++ [id], x < H.length := by
        intro x hx
        rcases List.mem_append.1 hx with hx | hx
        · exact hb x hx
        · simp at hx; subst hx; exact hid
      have hlen1 := length_le_of_bound hnd1 hb1
      simp only [List.length_append, List.length_singleton] at hlen1
      have loop : ∀ (rest : List (Name × Setter α)) (cur : List NodeId),
          (∀ q ∈ rest, q ∈ (H[id]).setters) → Visited H R (seen ++ [id]) cur →
          ∃ seen', rest.foldlM (fun seen q =>
            match q.2.src.dep with
            | some d => if d ≠ id then Heap.visit H fuel d seen else .ok seen
            | none => .ok seen) cur = .ok seen' ∧ Visited H R (seen ++ [id]) seen' ∧
            Visited H R cur seen' ∧ ∀ q ∈ rest, ∀ d, q.2.src.dep = some d → d ∈ seen' := by
        intro rest
        induction rest with
        | nil => intro cur _ hv; exact ⟨cur, rfl, hv, Visited.refl hv.nodup hv.bound, by simp⟩
        | cons q rest ihr =>
          intro cur hrest hv
          rw [List.foldlM_cons]
          have hstep : ∃ c2, (match q.2.src.dep with
              | some d => if d ≠ id then Heap.visit H fuel d cur else .ok cur
              | none => .ok cur : Except Err (List NodeId)) = .ok c2 ∧ Visited H R cur c2 ∧
              ∀ d, q.2.src.dep = some d → d ∈ c2 := by
            cases hd : q.2.src.dep with
            | none => exact ⟨cur, rfl, Visited.refl hv.nodup hv.bound, by intro d h; cases h⟩
            | some d =>
              simp only
              have hr : Reads H id d := (dep_iff_reads hget).2 ⟨q, hrest q (by simp), hd⟩
              by_cases hdid : d ≠ id
              · rw [if_pos hdid]
                obtain ⟨n1, e1⟩ := hv.ext
                have hl : seen.length + 1 ≤ cur.length := by rw [e1]; simp
                obtain ⟨c2, g1, g2, g3⟩ := ih d cur hv.nodup hv.bound (hlinks id d hr) (hR id d hRid hr) (by omega)
                exact ⟨c2, g1, g2, by intro d' e; cases e; exact g3⟩
              · rw [if_neg hdid]
                simp only [ne_eq, Classical.not_not] at hdid
                refine ⟨cur, rfl, Visited.refl hv.nodup hv.bound, ?_⟩
                intro d' e; cases e; subst hdid
                exact hv.mem (by simp)
          obtain ⟨c2, g1, g2, g3⟩ := hstep
          rw [g1]
          obtain ⟨s', f1, f2, f3, f4⟩ := ihr c2 (fun x hx => hrest x (List.mem_cons_of_mem _ hx)) (hv.trans g2)
          refine ⟨s', f1, f2, g2.trans f3, ?_⟩
          intro x hx d hd
          rcases List.mem_cons.1 hx with rfl | hx
          · exact f3.mem (g3 d hd)
          · exact f4 x hx d hd
      obtain ⟨s', f1, f2, _, f4⟩ := loop (H[id]).setters (seen ++ [id]) (fun _ h => h) (Visited.refl hnd1 hb1)
      refine ⟨s', f1, ⟨?_, f2.nodup, f2.bound, ?_, ?_⟩, f2.mem (by simp)⟩
      · obtain ⟨n, e⟩ := f2.ext
        exact ⟨id :: n, by rw [e]; simp⟩
      · intro x hx
        rcases f2.reach x hx with h | h
        · rcases List.mem_append.1 h with h | h
          · exact Or.inl h
          · simp at h; subst h; exact Or.inr hRid
        · exact Or.inr h
      · intro x hx hxs d hd
        by_cases hxi : x = id
        · subst hxi
          obtain ⟨q, hq, hqd⟩ := (dep_iff_reads hget).1 hd
          exact f4 q hq d hqd
        · exact f2.closed x hx (by simp [hxs, hxi]) d hd

theorem visitAll_fold {H : Heap α σ} (hlinks : ∀ a b, Reads H a b → b < H.length) {R : NodeId → Prop}
    (hR : ∀ a b, R a → Reads H a b → R b) : ∀ (roots : List NodeId) (cur : List NodeId),
    (∀ x ∈ roots, x < H.length ∧ R x) → cur.Nodup → (∀ x ∈ cur, x < H.length) →
    ∃ seen', roots.foldlM (fun seen r => Heap.visit H (H.length + 1) r seen) cur = .ok seen' ∧
      Visited H R cur seen' ∧ ∀ x ∈ roots, x ∈ seen' := by
  intro roots
  induction roots with
  | nil => intro cur _ h1 h2; exact ⟨cur, rfl, Visited.refl h1 h2, by simp⟩
  | cons a roots ih =>
    intro cur hroots h1 h2
    obtain ⟨ha, hRa⟩ := hroots a (by simp)
    obtain ⟨c2, g1, g2, g3⟩ := visit_ok hlinks hR (H.length + 1) a cur h1 h2 ha hRa (by omega)
    obtain ⟨s', f1, f2, f3⟩ := ih c2 (fun x hx => hroots x (List.mem_cons_of_mem _ hx)) g2.nodup g2.bound
    refine ⟨s', ?_, g2.trans f2, ?_⟩
    · rw [List.foldlM_cons, g1]; exact f1
    · intro x hx
      rcases List.mem_cons.1 hx with rfl | hx
      · exact f2.mem g3
      · exact f3 x hx

/-- The traversal order lists exactly the reachable nodes, once each, the first root first. -/
theorem visitAll_ok {H : Heap α σ} (hlinks : ∀ a b, Reads H a b → b < H.length) (roots : List NodeId)
    (hroots : ∀ x ∈ roots, x < H.length) :
    ∃ order, Heap.visitAll H roots = .ok order ∧ order.Nodup ∧ (∀ x, x ∈ order ↔ Reach H roots x) ∧
      (∀ x ∈ order, x < H.length) := by
  obtain ⟨s', f1, f2, f3⟩ := visitAll_fold hlinks (R := Reach H roots) (fun a b h1 h2 => Reach.step h1 h2)
    roots [] (fun x hx => ⟨hroots x hx, Reach.root hx⟩) (by simp) (by simp)
  refine ⟨s', f1, f2.nodup, ?_, f2.bound⟩
  intro x
  constructor
  · intro hx
    rcases f2.reach x hx with h | h
    · simp at h
    · exact h
  · intro h
    induction h with
    | root ha => exact f3 _ ha
    | step _ hr ih => exact f2.closed _ ih (by simp) _ hr

/-! ## Decimal names -/

theorem digit_inj {a b : Nat} (ha : a < 10) (hb : b < 10)
    (h : Char.ofNat (48 + a) = Char.ofNat (48 + b)) : a = b := by
  have key : ∀ a : Fin 10, ∀ b : Fin 10, Char.ofNat (48 + a.val) = Char.ofNat (48 + b.val) → a.val = b.val := by
    decide
  exact key ⟨a, ha⟩ ⟨b, hb⟩ h

theorem digit_ne {a : Nat} (ha : a < 10) : Char.ofNat (48 + a) ≠ '_' := by
  have key : ∀ a : Fin 10, Char.ofNat (48 + a.val) ≠ '_' := by decide
  exact key ⟨a, ha⟩

theorem decimal_ne_nil (n : Nat) : decimal n ≠ [] := by
  unfold decimal; split <;> simp

theorem decimal_no_underscore : ∀ n, '_' ∉ decimal n := by
  intro n
  induction n using Nat.strongRecOn with
  | ind n ih =>
    unfold decimal
    split
    · rename_i h
      simp only [List.mem_singleton]
      exact fun e => digit_ne h e.symm
    · rename_i h
      simp only [List.mem_append, List.mem_singleton, not_or]
      exact ⟨ih (n / 10) (by omega), fun e => digit_ne (by omega) e.symm⟩

theorem decimal_lt {n : Nat} (h : n < 10) : decimal n = [Char.ofNat (48 + n)] := by
  rw [decimal, if_pos h]

theorem decimal_ge {n : Nat} (h : ¬ n < 10) :
    decimal n = decimal (n / 10) ++ [Char.ofNat (48 + n % 10)] := by
  rw [decimal, if_neg h]

theorem decimal_inj : ∀ n m, decimal n = decimal m → n = m := by
  intro n
  induction n using Nat.strongRecOn with
  | ind n ih =>
    intro m h
    by_cases hn : n < 10
    · by_cases hm : m < 10
      · rw [decimal_lt hn, decimal_lt hm] at h
        exact digit_inj hn hm (by simpa using h)
      · rw [decimal_lt hn, decimal_ge hm] at h
        have := congrArg List.length h
        have h2 : 1 ≤ (decimal (m / 10)).length := by
          have := decimal_ne_nil (m / 10)
          cases hd : decimal (m / 10) with
          | nil => exact absurd hd this
          | cons => simp
        simp at this; exact absurd this (decimal_ne_nil _)
    · by_cases hm : m < 10
      · rw [decimal_ge hn, decimal_lt hm] at h
        have := congrArg List.length h
        simp at this; exact absurd this (decimal_ne_nil _)
      · rw [decimal_ge hn, decimal_ge hm] at h
        obtain ⟨h1, h2⟩ := List.append_inj' h rfl
        have e1 := ih (n / 10) (by omega) (m / 10) h1
        have e2 := digit_inj (a := n % 10) (b := m % 10) (by omega) (by omega) (by simpa using h2)
        omega

/-- Names ending in `_<position>` with different positions differ. -/
theorem suffix_inj {a b : Name} {k l : Nat} (h : a ++ '_' :: decimal k = b ++ '_' :: decimal l) : k = l := by
  have hsplit : ∀ (x y : Name) (u v : Name), '_' ∉ u → '_' ∉ v → x ++ '_' :: u = y ++ '_' :: v → u = v := by
    intro x y u v hu hv he
    have h1 : (x ++ '_' :: u).reverse = u.reverse ++ '_' :: x.reverse := by simp
    have h2 : (y ++ '_' :: v).reverse = v.reverse ++ '_' :: y.reverse := by simp
    rw [he, h2] at h1
    have gen : ∀ (p q s t : Name), '_' ∉ p → '_' ∉ q → p ++ '_' :: s = q ++ '_' :: t → p = q := by
      intro p
      induction p with
      | nil =>
        intro q s t _ hq he
        cases q with
        | nil => rfl
        | cons c q => simp at he; simp [← he.1] at hq
      | cons c p ih =>
        intro q s t hp hq he
        cases q with
        | nil => simp at he; simp [he.1] at hp
        | cons d q =>
          simp at he hp hq
          rw [he.1, ih q s t hp.2 hq.2 he.2]
    have := gen v.reverse u.reverse _ _ (by simpa using hv) (by simpa using hu) h1
    exact (List.reverse_inj.1 this).symm
  exact decimal_inj _ _ (hsplit a b _ _ (decimal_no_underscore k) (decimal_no_underscore l) h)

end LCL.NodeLemmas
