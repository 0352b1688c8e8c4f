import Verif.Spec.DepApi

/-!
# Property C16: a dependency graph a program fills by its own calls
-/

namespace LCL.DepApiProps
open LCL LCL.DepApiSpec
variable {α : Type} {txt : Val α → Name}

theorem calls_snoc (txt : Val α → Name) (ops : List (DepOp α)) (op : DepOp α) :
    DepGraph.calls txt (ops ++ [op]) = ((DepGraph.calls txt ops).call txt op).1 := by
  unfold DepGraph.calls
  rw [List.foldl_append]
  rfl

/-- The parameters are distinct and every one has its two lists of edges. -/
def Inv (g : DepGraph) : Prop :=
  g.params.Nodup ∧ (∀ p, p ∈ g.incoming.keys ↔ p ∈ g.params) ∧ ∀ p, p ∈ g.outgoing.keys ↔ p ∈ g.params

theorem addFull_spec {g : DepGraph} (h : Inv g) (p : Name) : Inv (g.addFull p) ∧ (∀ q, q ∈ (g.addFull p).params ↔ q ∈ g.params ∨ q = p) ∧
    (g.addFull p).numConst = g.numConst ∧ ∀ x y, listedIn (g.addFull p) x y = listedIn g x y ∧ listedOut (g.addFull p) x y = listedOut g x y := by
  obtain ⟨h1, h2, h3⟩ := h
  unfold DepGraph.addFull
  split
  · rename_i hp
    exact ⟨⟨h1, h2, h3⟩, fun q => ⟨Or.inl, fun hq => hq.elim id fun e => e ▸ hp⟩, rfl, fun _ _ => ⟨rfl, rfl⟩⟩
  · rename_i hp
    have none_of : ∀ d : Dict Name (List Name), p ∉ d.keys → d.get? p = none := by
      intro d hd
      by_contra hne
      obtain ⟨v, hv⟩ := Option.ne_none_iff_exists'.1 hne
      exact hd (List.mem_map_of_mem (f := Prod.fst) (Dict.mem_of_get? hv))
    refine ⟨⟨?_, ?_, ?_⟩, by simp, rfl, ?_⟩
    · exact List.Nodup.append h1 (by simp) (by simpa using hp)
    · intro q; simp only [Dict.mem_keys_set, h2, List.mem_append, List.mem_singleton]; tauto
    · intro q; simp only [Dict.mem_keys_set, h3, List.mem_append, List.mem_singleton]; tauto
    · intro x y
      unfold listedIn listedOut
      constructor
      · by_cases hy : p = y
        · subst hy
          rw [Dict.get?_set_self, none_of _ (fun h => hp ((h2 _).1 h))]
          rfl
        · rw [Dict.get?_set_ne _ _ hy]
      · by_cases hx : p = x
        · subst hx
          rw [Dict.get?_set_self, none_of _ (fun h => hp ((h3 _).1 h))]
          rfl
        · rw [Dict.get?_set_ne _ _ hx]

theorem getD_set (d : Dict Name (List Name)) (k j : Name) (v : List Name) : ((d.set k v).get? j).getD [] = if k = j then v else (d.get? j).getD [] := by
  split
  · rename_i h; subst h; rw [Dict.get?_set_self]; rfl
  · rename_i h; rw [Dict.get?_set_ne _ _ h]

theorem addEdge_spec {g g' : DepGraph} (h : Inv g) {a b : Name} (he : g.addEdge a b = .ok g') : a ∈ g.params ∧ b ∈ g.params ∧ Inv g' ∧
    g'.params = g.params ∧ g'.numConst = g.numConst ∧ ∀ x y, listedIn g' x y = listedIn g x y + (if a = x ∧ b = y then 1 else 0) ∧
      listedOut g' x y = listedOut g x y + (if a = x ∧ b = y then 1 else 0) := by
  obtain ⟨h1, h2, h3⟩ := h
  unfold DepGraph.addEdge at he
  split at he
  · cases he
  · rename_i hn
    rw [not_or, not_not, not_not] at hn
    cases he
    refine ⟨hn.1, hn.2, ⟨h1, ?_, ?_⟩, rfl, rfl, ?_⟩
    · intro q; simp only [Dict.mem_keys_set, h2]; exact ⟨fun h => h.elim (fun e => e ▸ hn.2) id, Or.inr⟩
    · intro q; simp only [Dict.mem_keys_set, h3]; exact ⟨fun h => h.elim (fun e => e ▸ hn.1) id, Or.inr⟩
    · intro x y
      unfold listedIn listedOut
      simp only [getD_set]
      constructor
      · by_cases hb : b = y
        · subst hb
          simp only [if_true, List.count_append, and_true, List.count_singleton, beq_iff_eq]
        · simp [hb]
      · by_cases ha : a = x
        · subst ha
          simp only [if_true, List.count_append, true_and, List.count_singleton, beq_iff_eq]
        · simp [ha]

theorem added_snoc (ops : List (DepOp α)) (op : DepOp α) (p : Name) : Added txt (ops ++ [op]) p ↔ Added txt ops p ∨
    match op with
    | .param q none => p = q
    | .param q (some n) => p = n ++ '.' :: q
    | .const v => p = DepGraph.constName txt (ops.countP isConst) v
    | .edge _ _ => False := by
  have hc : (∃ pre v post, ops ++ [op] = pre ++ DepOp.const v :: post ∧ p = DepGraph.constName txt (pre.countP isConst) v) ↔
      (∃ pre v post, ops = pre ++ DepOp.const v :: post ∧ p = DepGraph.constName txt (pre.countP isConst) v) ∨
      ∃ v, op = .const v ∧ p = DepGraph.constName txt (ops.countP isConst) v := by
    constructor
    · rintro ⟨pre, v, post, h, hp⟩
      rcases List.eq_nil_or_concat post with rfl | ⟨post', z, rfl⟩
      · obtain ⟨e1, e2⟩ := List.append_inj' h rfl
        cases e2
        subst e1
        exact Or.inr ⟨v, rfl, hp⟩
      · rw [List.concat_eq_append, ← List.cons_append, ← List.append_assoc] at h
        obtain ⟨e1, -⟩ := List.append_inj' h rfl
        exact Or.inl ⟨pre, v, post', e1, hp⟩
    · rintro (⟨pre, v, post, rfl, hp⟩ | ⟨v, rfl, hp⟩)
      · exact ⟨pre, v, post ++ [op], by simp, hp⟩
      · exact ⟨ops, v, [], rfl, hp⟩
  have hu : ∀ l : List (DepOp α), Added txt l p ↔ DepOp.param p none ∈ l ∨ (∃ q n, DepOp.param q (some n) ∈ l ∧ p = n ++ '.' :: q) ∨
      ∃ pre v post, l = pre ++ DepOp.const v :: post ∧ p = DepGraph.constName txt (pre.countP isConst) v := fun _ => Iff.rfl
  rw [hu, hu, hc]
  simp only [List.mem_append, List.mem_singleton]
  cases op with
  | param q n =>
    cases n with
    | none =>
      simp only [DepOp.param.injEq, and_true, reduceCtorEq, and_false, or_false, false_and, exists_false]
      constructor
      · rintro ((h | h) | h)
        exacts [.inl (.inl h), .inr h, .inl (.inr h)]
      · rintro ((h | h) | h)
        exacts [.inl (.inl h), .inr h, .inl (.inr h)]
    | some n =>
      simp only [DepOp.param.injEq, and_false, reduceCtorEq, or_false, false_and, exists_false, Option.some.injEq]
      constructor
      · rintro (h | ⟨q', n', h | ⟨rfl, rfl⟩, hp⟩ | h)
        exacts [.inl (.inl h), .inl (.inr (.inl ⟨_, _, h, hp⟩)), .inr hp, .inl (.inr (.inr h))]
      · rintro ((h | ⟨q', n', h, hp⟩ | h) | hp)
        exacts [.inl h, .inr (.inl ⟨_, _, .inl h, hp⟩), .inr (.inr h), .inr (.inl ⟨_, _, .inr ⟨rfl, rfl⟩, hp⟩)]
  | const v =>
    simp only [reduceCtorEq, or_false, DepOp.const.injEq, exists_eq_left', or_assoc]
  | edge a b => simp only [reduceCtorEq, or_false, false_and, exists_false]

theorem edges_snoc (ops : List (DepOp α)) (op : DepOp α) (x y : Name) : edgesMade txt (ops ++ [op]) x y = edgesMade txt ops x y +
    (open Classical in if op = .edge x y ∧ Added txt ops x ∧ Added txt ops y then 1 else 0) := by
  classical
  unfold edgesMade
  rw [List.length_append, List.length_singleton, List.range_succ, List.countP_append]
  congr 1
  · apply List.countP_congr
    intro i hi
    have hi := List.mem_range.1 hi
    rw [List.getElem?_append_left hi, List.take_append_of_le_length hi.le]
  · simp only [List.countP_singleton, List.getElem?_concat_length, Option.some.injEq, List.take_left', decide_eq_true_eq]

/-- The state of the graph after a program. -/
theorem calls_spec (txt : Val α → Name) (ops : List (DepOp α)) : Inv (DepGraph.calls txt ops) ∧
    (∀ p, p ∈ (DepGraph.calls txt ops).params ↔ Added txt ops p) ∧ (DepGraph.calls txt ops).numConst = ops.countP isConst ∧
    ∀ x y, listedIn (DepGraph.calls txt ops) x y = edgesMade txt ops x y ∧ listedOut (DepGraph.calls txt ops) x y = edgesMade txt ops x y := by
  classical
  induction ops using List.reverseRecOn with
  | nil =>
    refine ⟨⟨List.nodup_nil, fun _ => Iff.rfl, fun _ => Iff.rfl⟩, fun p => ?_, rfl, fun x y => ⟨rfl, rfl⟩⟩
    constructor
    · intro h; exact absurd h (List.not_mem_nil)
    · rintro (h | ⟨_, _, h, _⟩ | ⟨pre, v, post, h, _⟩)
      · exact absurd h List.not_mem_nil
      · exact absurd h List.not_mem_nil
      · exact absurd (congrArg List.length h) (by simp)
  | append_singleton ops op ih =>
    obtain ⟨h1, h2, h3, h4⟩ := ih
    rw [calls_snoc]
    simp only [added_snoc, edges_snoc, List.countP_append, List.countP_singleton]
    generalize hg : DepGraph.calls txt ops = g at h1 h2 h3 h4
    cases op with
    | param q n =>
      cases n with
      | none =>
        obtain ⟨a1, a2, a3, a4⟩ := addFull_spec h1 q
        exact ⟨a1, fun p => (a2 p).trans (by rw [h2]), a3.trans h3, fun x y => ⟨((a4 x y).1.trans (h4 x y).1).trans (by simp), ((a4 x y).2.trans (h4 x y).2).trans (by simp)⟩⟩
      | some n =>
        have h1' : Inv { g with nodes := if n ∈ g.nodes then g.nodes else g.nodes ++ [n] } := h1
        obtain ⟨a1, a2, a3, a4⟩ := addFull_spec h1' (GState.extendedName n q)
        exact ⟨a1, fun p => (a2 p).trans (or_congr (h2 p) Iff.rfl), a3.trans h3,
          fun x y => ⟨((a4 x y).1.trans (h4 x y).1).trans (by simp), ((a4 x y).2.trans (h4 x y).2).trans (by simp)⟩⟩
    | const v =>
      have h1' : Inv { g with numConst := g.numConst + 1 } := h1
      obtain ⟨a1, a2, a3, a4⟩ := addFull_spec h1' (DepGraph.constName txt g.numConst v)
      exact ⟨a1, fun p => (a2 p).trans (or_congr (h2 p) (by rw [h3])), a3.trans (by rw [← h3]; rfl),
        fun x y => ⟨((a4 x y).1.trans (h4 x y).1).trans (by simp), ((a4 x y).2.trans (h4 x y).2).trans (by simp)⟩⟩
    | edge a b =>
      cases he : g.addEdge a b with
      | error e =>
        have hcall : (g.call txt (.edge a b)).1 = g := by simp only [DepGraph.call, he]
        have hno : ¬ (Added txt ops a ∧ Added txt ops b) := by
          rw [← h2, ← h2]
          intro hh
          unfold DepGraph.addEdge at he
          rw [if_neg (by simp [hh.1, hh.2])] at he
          cases he
        rw [hcall]
        refine ⟨h1, fun p => (h2 p).trans (by simp), h3.trans (by simp [isConst]), fun x y => ?_⟩
        rw [if_neg (by rintro ⟨e, hx, hy⟩; cases e; exact hno ⟨hx, hy⟩), Nat.add_zero]
        exact h4 x y
      | ok g' =>
        have hcall : (g.call txt (.edge a b)).1 = g' := by simp only [DepGraph.call, he]
        obtain ⟨ha, hb, b1, b2, b3, b4⟩ := addEdge_spec h1 he
        rw [hcall]
        refine ⟨b1, fun p => by rw [b2, h2]; simp, b3.trans (h3.trans (by simp [isConst])), fun x y => ?_⟩
        have hiff : ((DepOp.edge a b : DepOp α) = .edge x y ∧ Added txt ops x ∧ Added txt ops y) ↔ a = x ∧ b = y := by
          simp only [DepOp.edge.injEq]
          constructor
          · exact fun h => h.1
          · rintro ⟨rfl, rfl⟩; exact ⟨⟨rfl, rfl⟩, (h2 _).1 ha, (h2 _).1 hb⟩
        rw [if_congr hiff rfl rfl, (b4 x y).1, (b4 x y).2, (h4 x y).1, (h4 x y).2]
        exact ⟨rfl, rfl⟩

/-- C16, filled by hand: after any sequence of `add_parameter`, `add_constant` and `add_edge` calls the graph contains exactly the names added,
counts each once, lists every edge on both its sides as often as it was asked for between added parameters, and an edge is refused, with KeyError
and without an effect, exactly when one of its ends has not been added; adding parameters and constants never fails. -/
theorem C16_calls (txt : Val α → Name) (ops : List (DepOp α)) :
    (∀ p, (DepGraph.calls txt ops).contains p = true ↔ Added txt ops p) ∧
    (DepGraph.calls txt ops).len = {p | Added txt ops p}.ncard ∧
    (∀ p, ((DepGraph.calls txt ops).incoming.has p = true ↔ Added txt ops p) ∧ ((DepGraph.calls txt ops).outgoing.has p = true ↔ Added txt ops p)) ∧
    (∀ x y, listedIn (DepGraph.calls txt ops) x y = edgesMade txt ops x y ∧ listedOut (DepGraph.calls txt ops) x y = edgesMade txt ops x y) ∧
    (∀ a b, (¬ (Added txt ops a ∧ Added txt ops b) → (DepGraph.calls txt ops).call txt (.edge a b) = (DepGraph.calls txt ops, some .keyError)) ∧
      (Added txt ops a ∧ Added txt ops b → ((DepGraph.calls txt ops).call txt (.edge a b)).2 = none)) ∧
    (∀ p n, ((DepGraph.calls txt ops).call txt (.param p n)).2 = none) ∧ ∀ v, ((DepGraph.calls txt ops).call txt (.const v)).2 = none := by
  classical
  obtain ⟨⟨h1, h1', h1''⟩, h2, -, h4⟩ := calls_spec txt ops
  refine ⟨fun p => by rw [DepGraph.contains, decide_eq_true_eq, h2], ?_, fun p => ⟨by rw [Dict.has_iff, h1', h2], by rw [Dict.has_iff, h1'', h2]⟩, h4, ?_,
    fun _ _ => rfl, fun _ => rfl⟩
  · have : {p | Added txt ops p} = ((DepGraph.calls txt ops).params.toFinset : Set Name) := by
      ext p; simp [h2]
    rw [this, Set.ncard_coe_finset, List.toFinset_card_of_nodup h1]
    rfl
  · intro a b
    rw [← h2, ← h2]
    constructor
    · intro h
      simp only [DepGraph.call, DepGraph.addEdge]
      rw [if_pos (by tauto)]
    · intro h
      simp only [DepGraph.call, DepGraph.addEdge]
      rw [if_neg (by tauto)]

/-- A program: two parameters, one of them twice, a constant, an edge twice, and an edge to a name never added. -/
example : (DepGraph.calls (fun _ : Val Nat => ['5']) [.param ['z'] (some ['h']), .param ['x'] none, .const (.scalar 5), .param ['x'] none,
      .edge "const_0=5".toList ['x'], .edge ['x'] "h.z".toList, .edge ['x'] "h.z".toList, .edge ['x'] ['y']]).len = 3 ∧
    listedIn (DepGraph.calls (fun _ : Val Nat => ['5']) [.param ['z'] (some ['h']), .param ['x'] none, .const (.scalar 5), .param ['x'] none,
      .edge "const_0=5".toList ['x'], .edge ['x'] "h.z".toList, .edge ['x'] "h.z".toList, .edge ['x'] ['y']]) ['x'] "h.z".toList = 2 := by
  decide +kernel

end LCL.DepApiProps
