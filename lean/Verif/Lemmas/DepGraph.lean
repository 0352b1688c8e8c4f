import Verif.Lemmas.Positions
import Verif.Spec.DepGraph

/-!
# Lemmas about dependency graphs
-/

namespace LCL.DepLemmas
open LCL LCL.NodeSpec LCL.NodeLemmas
variable {α σ : Type}

/-! ## Names -/

theorem fullName_inj {a b c d : Name} (ha : '.' ∉ a) (hb : '.' ∉ b) (hc : '.' ∉ c) (hd : '.' ∉ d)
    (h : fullName a b = fullName c d) : a = c ∧ b = d := by
  have hdot : ∀ {x : Name}, '.' ∉ x → hasDot x = false := by
    intro x hx; simpa [hasDot] using hx
  have h1 := splitDot_join (hdot ha) (hdot hb)
  have h2 := splitDot_join (hdot hc) (hdot hd)
  unfold fullName at h
  rw [h, h2] at h1
  simpa [eq_comm] using h1

theorem digit_ne_eq {a : Nat} (ha : a < 10) : Char.ofNat (48 + a) ≠ '=' := by
  have key : ∀ a : Fin 10, Char.ofNat (48 + a.val) ≠ '=' := by decide
  exact key ⟨a, ha⟩

theorem decimal_no_eq : ∀ n, '=' ∉ decimal n := by
  intro n
  induction n using Nat.strongRecOn with
  | ind n ih =>
    unfold decimal
    split
    · rename_i h
      simp only [List.mem_singleton]
      exact fun e => digit_ne_eq h e.symm
    · rename_i h
      simp only [List.mem_append, List.mem_singleton, not_or]
      exact ⟨ih (n / 10) (by omega), fun e => digit_ne_eq (by omega) e.symm⟩

theorem constName_eq (txt : Val α → Name) (k : Nat) (v : Val α) :
    DepGraph.constName txt k v = constEntry txt k v := by
  unfold DepGraph.constName constEntry; simp

theorem constEntry_inj {txt : Val α → Name} {k l : Nat} {v w : Val α}
    (h : constEntry txt k v = constEntry txt l w) : k = l := by
  rw [← constName_eq, ← constName_eq] at h
  unfold DepGraph.constName at h
  have h := List.append_cancel_left h
  have gen : ∀ (p q s t : Name), '=' ∉ p → '=' ∉ q → p ++ '=' :: s = q ++ '=' :: t → p = q := by
    intro p
    induction p with
    | nil =>
      intro q s t _ hq he
      cases q with
      | nil => rfl
      | cons c q => simp at he; simp [← he.1] at hq
    | cons c p ih =>
      intro q s t hp hq he
      cases q with
      | nil => simp at he; simp [he.1] at hp
      | cons d q =>
        simp at he hp hq
        rw [he.1, ih q s t hp.2 hq.2 he.2]
  exact decimal_inj _ _ (gen _ _ _ _ (decimal_no_eq k) (decimal_no_eq l) h)

/-! ## Operations -/

def inc (g : DepGraph) (y : Name) : List Name := (g.incoming.get? y).getD []
def out (g : DepGraph) (x : Name) : List Name := (g.outgoing.get? x).getD []

/-- Bookkeeping invariant. -/
structure Basic (g : DepGraph) : Prop where
  nodup : g.params.Nodup
  keysI : ∀ x, x ∈ g.params ↔ ∃ l, g.incoming.get? x = some l
  keysO : ∀ x, x ∈ g.params ↔ ∃ l, g.outgoing.get? x = some l
  cnt : ∀ x y, (inc g y).count x = (out g x).count y

theorem Basic.inc_absent {g : DepGraph} (h : Basic g) {y : Name} (hy : y ∉ g.params) : inc g y = [] := by
  unfold inc
  cases hg : g.incoming.get? y with
  | none => rfl
  | some l => exact absurd ((h.keysI y).2 ⟨l, hg⟩) hy

theorem Basic.out_absent {g : DepGraph} (h : Basic g) {y : Name} (hy : y ∉ g.params) : out g y = [] := by
  unfold out
  cases hg : g.outgoing.get? y with
  | none => rfl
  | some l => exact absurd ((h.keysO y).2 ⟨l, hg⟩) hy

theorem addFull_spec {g : DepGraph} (h : Basic g) (x : Name) :
    Basic (g.addFull x) ∧ (∀ y, inc (g.addFull x) y = inc g y) ∧ (∀ y, out (g.addFull x) y = out g y) ∧
    (∀ y, y ∈ (g.addFull x).params ↔ y = x ∨ y ∈ g.params) ∧ (g.addFull x).nodes = g.nodes ∧
    (g.addFull x).numConst = g.numConst := by
  unfold DepGraph.addFull
  by_cases hx : x ∈ g.params
  · rw [if_pos hx]
    exact ⟨h, fun _ => rfl, fun _ => rfl, fun y => ⟨Or.inr, fun e => e.elim (fun e => e ▸ hx) (fun e => e)⟩, rfl, rfl⟩
  · rw [if_neg hx]
    have hi : ∀ y, inc { g with params := g.params ++ [x], incoming := g.incoming.set x [], outgoing := g.outgoing.set x [] } y = inc g y := by
      intro y
      by_cases e : x = y
      · subst e; rw [h.inc_absent hx]; simp [inc]
      · simp [inc, Dict.get?_set, e]
    have ho : ∀ y, out { g with params := g.params ++ [x], incoming := g.incoming.set x [], outgoing := g.outgoing.set x [] } y = out g y := by
      intro y
      by_cases e : x = y
      · subst e; rw [h.out_absent hx]; simp [out]
      · simp [out, Dict.get?_set, e]
    refine ⟨⟨?_, ?_, ?_, ?_⟩, hi, ho, ?_, rfl, rfl⟩
    · rw [List.nodup_append]
      exact ⟨h.nodup, by simp, by intro a ha b hb; simp at hb; subst hb; exact fun e => hx (e ▸ ha)⟩
    · intro y
      simp only [List.mem_append, List.mem_singleton, Dict.get?_set]
      by_cases e : x = y
      · simp [e]
      · simp only [e, if_false, ← h.keysI y]
        exact ⟨fun h => h.elim (fun h => h) (fun h => absurd h.symm e), Or.inl⟩
    · intro y
      simp only [List.mem_append, List.mem_singleton, Dict.get?_set]
      by_cases e : x = y
      · simp [e]
      · simp only [e, if_false, ← h.keysO y]
        exact ⟨fun h => h.elim (fun h => h) (fun h => absurd h.symm e), Or.inl⟩
    · intro a b; rw [hi, ho]; exact h.cnt a b
    · intro y; simp [or_comm]

theorem addEdge_spec {g : DepGraph} (h : Basic g) {a b : Name} (ha : a ∈ g.params) (hb : b ∈ g.params) :
    ∃ g', g.addEdge a b = .ok g' ∧ Basic g' ∧ g'.params = g.params ∧ g'.nodes = g.nodes ∧
      g'.numConst = g.numConst ∧ (∀ y, inc g' y = if b = y then inc g b ++ [a] else inc g y) ∧
      (∀ x, out g' x = if a = x then out g a ++ [b] else out g x) := by
  unfold DepGraph.addEdge
  rw [if_neg (by simp [ha, hb])]
  refine ⟨_, rfl, ?_⟩
  have hi : ∀ y, inc { g with incoming := g.incoming.set b ((g.incoming.get? b).getD [] ++ [a]), outgoing := g.outgoing.set a ((g.outgoing.get? a).getD [] ++ [b]) } y = if b = y then inc g b ++ [a] else inc g y := by
    intro y; simp only [inc, Dict.get?_set]; split <;> rfl
  have ho : ∀ x, out { g with incoming := g.incoming.set b ((g.incoming.get? b).getD [] ++ [a]), outgoing := g.outgoing.set a ((g.outgoing.get? a).getD [] ++ [b]) } x = if a = x then out g a ++ [b] else out g x := by
    intro y; simp only [out, Dict.get?_set]; split <;> rfl
  refine ⟨⟨h.nodup, ?_, ?_, ?_⟩, rfl, rfl, rfl, hi, ho⟩
  · intro x; simp only [Dict.get?_set]
    split
    · rename_i e; subst e; simp [hb]
    · exact h.keysI x
  · intro x; simp only [Dict.get?_set]
    split
    · rename_i e; subst e; simp [ha]
    · exact h.keysO x
  · intro x y
    rw [hi, ho]
    have := h.cnt x y
    by_cases e1 : b = y <;> by_cases e2 : a = x
    · subst e1; subst e2; simp [List.count_append, this]
    · subst e1; simp [e2, List.count_append, this, List.count_singleton]
    · subst e2; simp [e1, List.count_append, this, List.count_singleton]
    · simp [e1, e2, this]

/-! ## The traversal -/

variable (txt : Val α → Name) (H : Heap α σ) (root : NodeId) (rank : NodeId → Nat)

/-- Which entries there are. -/
structure GI (g : DepGraph) : Prop where
  basic : Basic g
  nodesR : ∀ m ∈ g.nodes, ∃ id nd, Reach H [root] id ∧ H[id]? = some nd ∧ nd.str = m
  kind : ∀ x ∈ g.params,
    (∃ id nd p, Reach H [root] id ∧ H[id]? = some nd ∧ nd.str ∈ g.nodes ∧ p ∈ nd.setters.keys ∧
      x = fullName nd.str p) ∨
    ∃ (k : Nat) (v : Val α) (y : Name), k < g.numConst ∧ x = constEntry txt k v ∧ out g x = [y] ∧ inc g x = []

/-- All parameters of a node are entered with their dependencies. -/
def Fin (g : DepGraph) (nd : PNode α σ) : Prop :=
  ∀ p st, (p, st) ∈ nd.setters → fullName nd.str p ∈ g.params ∧
    DependsOn txt H nd st.src (inc g (fullName nd.str p))

def FinName (g : DepGraph) (m : Name) : Prop :=
  ∃ id nd, Reach H [root] id ∧ H[id]? = some nd ∧ nd.str = m ∧ Fin txt H g nd

/-- Nothing already entered changes; whatever is new belongs to new nodes. -/
structure Frame (g g' : DepGraph) : Prop where
  nodes : ∀ m ∈ g.nodes, m ∈ g'.nodes
  params : ∀ x ∈ g.params, x ∈ g'.params ∧ inc g' x = inc g x
  new : ∀ x ∈ g'.params, x ∉ g.params → (∃ k v, x = constEntry txt k v) ∨
    ∃ id nd p, Reach H [root] id ∧ H[id]? = some nd ∧ nd.str ∉ g.nodes ∧ p ∈ nd.setters.keys ∧
      x = fullName nd.str p

variable {txt H root rank}

theorem Fin.mono {g g' : DepGraph} {nd : PNode α σ} (h : Fin txt H g nd)
    (hp : ∀ x ∈ g.params, x ∈ g'.params ∧ inc g' x = inc g x) : Fin txt H g' nd := by
  intro p st hm
  obtain ⟨h1, h2⟩ := h p st hm
  obtain ⟨h3, h4⟩ := hp _ h1
  exact ⟨h3, by rw [h4]; exact h2⟩

theorem FinName.mono {g g' : DepGraph} {m : Name} (h : FinName txt H root g m)
    (hp : ∀ x ∈ g.params, x ∈ g'.params ∧ inc g' x = inc g x) : FinName txt H root g' m := by
  obtain ⟨id, nd, h1, h2, h3, h4⟩ := h
  exact ⟨id, nd, h1, h2, h3, h4.mono hp⟩

/-- An edge between two parameters (not constants). -/
theorem edge_gi {g : DepGraph} (h : GI txt H root g) {a b : Name} (ha : a ∈ g.params) (hb : b ∈ g.params)
    (hac : ∀ k v, a ≠ constEntry txt k v) (hbc : ∀ k v, b ≠ constEntry txt k v) :
    ∃ g', g.addEdge a b = .ok g' ∧ GI txt H root g' ∧ g'.params = g.params ∧ g'.nodes = g.nodes ∧
      g'.numConst = g.numConst ∧ (∀ y, inc g' y = if b = y then inc g b ++ [a] else inc g y) := by
  obtain ⟨g', e1, e2, e3, e4, e5, e6, e7⟩ := addEdge_spec h.basic ha hb
  refine ⟨g', e1, ⟨e2, by rw [e4]; exact h.nodesR, ?_⟩, e3, e4, e5, e6⟩
  intro x hx
  rw [e3] at hx
  rcases h.kind x hx with h1 | ⟨k, v, y, h1, h2, h3, h4⟩
  · rw [e4]; exact Or.inl h1
  · right
    refine ⟨k, v, y, by rw [e5]; exact h1, h2, ?_, ?_⟩
    · rw [e7, if_neg (fun e => hac k v (e.trans h2))]; exact h3
    · rw [e6, if_neg (fun e => hbc k v (e.trans h2))]; exact h4

/-- A new constant and its edge. -/
theorem const_gi (hD : Drawable txt H root rank) {g : DepGraph} (h : GI txt H root g) (v : Val α) {b : Name}
    (hb : b ∈ g.params) (hbc : ∀ k v, b ≠ constEntry txt k v) :
    ∃ g', (g.addConstant txt v).1.addEdge (g.addConstant txt v).2 b = .ok g' ∧ GI txt H root g' ∧
      g'.nodes = g.nodes ∧ (∀ x, x ∈ g'.params ↔ x = constEntry txt g.numConst v ∨ x ∈ g.params) ∧
      (∀ y, inc g' y = if b = y then inc g b ++ [constEntry txt g.numConst v] else inc g y) := by
  have hfresh : constEntry txt g.numConst v ∉ g.params := by
    intro hm
    rcases h.kind _ hm with ⟨id, nd, p, h1, h2, _, _, h3⟩ | ⟨k, w, y, h1, h2, _⟩
    · exact hD.noConst id nd p _ _ h1 h2 h3.symm
    · have := constEntry_inj h2; omega
  have hb0 : Basic { g with numConst := g.numConst + 1 } := ⟨h.basic.nodup, h.basic.keysI, h.basic.keysO, h.basic.cnt⟩
  obtain ⟨a1, a2, a3, a4, a5, a6⟩ := addFull_spec hb0 (constEntry txt g.numConst v)
  unfold DepGraph.addConstant
  simp only [constName_eq]
  obtain ⟨g', e1, e2, e3, e4, e5, e6, e7⟩ := addEdge_spec a1 ((a4 _).2 (Or.inl rfl)) ((a4 b).2 (Or.inr hb))
  have hinc : ∀ y, inc g' y = if b = y then inc g b ++ [constEntry txt g.numConst v] else inc g y := by
    intro y; rw [e6, a2, a2]; rfl
  refine ⟨g', e1, ⟨e2, by rw [e4, a5]; exact h.nodesR, ?_⟩, by rw [e4, a5], ?_, hinc⟩
  · intro x hx
    rw [e3, a4] at hx
    rcases hx with rfl | hx
    · right
      refine ⟨g.numConst, v, b, by rw [e5, a6]; exact Nat.lt_succ_self _, rfl, ?_, ?_⟩
      · rw [e7, if_pos rfl, a3]
        have : out g (constEntry txt g.numConst v) = [] := h.basic.out_absent hfresh
        show out g _ ++ [b] = [b]
        rw [this]; rfl
      · rw [hinc, if_neg (hbc _ _)]; exact h.basic.inc_absent hfresh
    · rcases h.kind x hx with h1 | ⟨k, w, y, h1, h2, h3, h4⟩
      · rw [e4, a5]; exact Or.inl h1
      · right
        have hx' : constEntry txt g.numConst v ≠ x := fun e => hfresh (e ▸ hx)
        refine ⟨k, w, y, by rw [e5, a6]; exact Nat.lt_succ_of_lt h1, h2, ?_, ?_⟩
        · rw [e7, if_neg hx', a3]; exact h3
        · rw [hinc, if_neg (fun e => hbc k w (e.trans h2))]; exact h4
  · intro x; rw [e3, a4]

/-- Edges from all arguments to one output. -/
theorem args_gi (hD : Drawable txt H root rank) {id : NodeId} {nd : PNode α σ} (hr : Reach H [root] id)
    (hid : H[id]? = some nd) (o : Name) : ∀ (l : List Name) (g : DepGraph), GI txt H root g →
    (∀ a ∈ l, fullName nd.str a ∈ g.params) → fullName nd.str o ∈ g.params →
    ∃ g', l.foldlM (fun g a => DepGraph.addEdge g (GState.extendedName nd.str a) (GState.extendedName nd.str o)) g = .ok g' ∧
      GI txt H root g' ∧ g'.params = g.params ∧ g'.nodes = g.nodes ∧
      (∀ y, inc g' y = if fullName nd.str o = y then inc g y ++ l.map (fullName nd.str) else inc g y) := by
  intro l
  induction l with
  | nil => intro g h _ _; exact ⟨g, rfl, h, rfl, rfl, fun y => by simp⟩
  | cons a l ih =>
    intro g h ha ho
    obtain ⟨g1, e1, e2, e3, e4, e5, e6⟩ := edge_gi h (ha a (by simp)) ho
      (fun k v => hD.noConst id nd a k v hr hid) (fun k v => hD.noConst id nd o k v hr hid)
    obtain ⟨g', f1, f2, f3, f4, f5⟩ := ih g1 e2 (fun x hx => by rw [e3]; exact ha x (List.mem_cons_of_mem _ hx))
      (by rw [e3]; exact ho)
    refine ⟨g', ?_, f2, f3.trans e3, f4.trans e4, ?_⟩
    · rw [List.foldlM_cons]
      show (DepGraph.addEdge g (fullName nd.str a) (fullName nd.str o) >>= _) = _
      rw [e1]; exact f1
    · intro y
      rw [f5]
      by_cases e : fullName nd.str o = y
      · subst e; simp [e6]
      · simp [e, e6]

/-- What the loop over the setters leaves for a source (computed outputs are handled later). -/
def Pre (txt : Val α → Name) (H : Heap α σ) (nd : PNode α σ) (s : Src α) (l : List Name) : Prop :=
  match s with
  | .computeOut _ => l = []
  | s => DependsOn txt H nd s l

/-- State of the loop over the setters of one node. -/
structure Loop (txt : Val α → Name) (H : Heap α σ) (root : NodeId) (nd : PNode α σ) (g0 : DepGraph)
    (done : List (Name × Setter α)) (u : DepGraph) : Prop where
  gi : GI txt H root u
  nodes : ∀ m ∈ g0.nodes, m ∈ u.nodes
  params : ∀ x ∈ g0.params, x ∈ u.params ∧ inc u x = inc g0 x
  own : ∀ p, '.' ∉ p → fullName nd.str p ∈ u.params → p ∈ done.map (·.1)
  preds : ∀ q ∈ done, fullName nd.str q.1 ∈ u.params ∧ Pre txt H nd q.2.src (inc u (fullName nd.str q.1))
  fin : ∀ m ∈ u.nodes, m ∉ g0.nodes → m ≠ nd.str → FinName txt H root u m
  new : ∀ x ∈ u.params, x ∉ g0.params → (∃ k v, x = constEntry txt k v) ∨
    ∃ id nd p, Reach H [root] id ∧ H[id]? = some nd ∧ nd.str ∉ g0.nodes ∧ p ∈ nd.setters.keys ∧
      x = fullName nd.str p

/-- What a call guarantees. -/
def Guarantee (txt : Val α → Name) (H : Heap α σ) (root : NodeId) (id : NodeId) (g g' : DepGraph) : Prop :=
  GI txt H root g' ∧ Frame txt H root g g' ∧ (∃ nd, H[id]? = some nd ∧ Fin txt H g' nd) ∧
  ∀ m ∈ g'.nodes, m ∉ g.nodes → FinName txt H root g' m

/-- What a call needs: everything entered so far is finished or above the current node. -/
def Needs (txt : Val α → Name) (H : Heap α σ) (root : NodeId) (rank : NodeId → Nat) (id : NodeId) (g : DepGraph) : Prop :=
  GI txt H root g ∧ ∀ m ∈ g.nodes, FinName txt H root g m ∨
    ∃ j nj, Reach H [root] j ∧ H[j]? = some nj ∧ nj.str = m ∧ rank id < rank j

theorem reads_of_dep {id : NodeId} {nd : PNode α σ} (hid : H[id]? = some nd) {q : Name × Setter α}
    (hq : q ∈ nd.setters) {d : NodeId} (hd : q.2.src.dep = some d) : Reads H id d ∧
      ∃ x, q.2.src.target = x ∧ (q.2.src = .modelParam d x ∨ q.2.src = .funcNode d x) := by
  cases hs : q.2.src with
  | modelParam d' q' =>
    rw [hs] at hd; cases hd
    exact ⟨⟨nd, q.1, q.2, hid, hq, Or.inl ⟨q', hs⟩⟩, q', rfl, Or.inl rfl⟩
  | funcNode d' q' =>
    rw [hs] at hd; cases hd
    exact ⟨⟨nd, q.1, q.2, hid, hq, Or.inr ⟨q', hs⟩⟩, q', rfl, Or.inr rfl⟩
  | undefined => rw [hs] at hd; cases hd
  | const v => rw [hs] at hd; cases hd
  | computeOut o => rw [hs] at hd; cases hd

/-- One iteration. -/
theorem step_loop (hD : Drawable txt H root rank) {rec : NodeId → DepGraph → Except Err DepGraph}
    {id : NodeId} {nd : PNode α σ} (hr : Reach H [root] id) (hid : H[id]? = some nd)
    (hrec : ∀ d g, Reach H [root] d → rank d < rank id → Needs txt H root rank d g →
      ∃ g', rec d g = .ok g' ∧ Guarantee txt H root d g g')
    {g0 : DepGraph} (hN : Needs txt H root rank id g0) (hfresh : nd.str ∉ g0.nodes)
    {done : List (Name × Setter α)} {u : DepGraph} (hL : Loop txt H root nd g0 done u)
    {q : Name × Setter α} (hq : q ∈ nd.setters) (hqn : q.1 ∉ done.map (·.1)) :
    ∃ u', Heap.depStep txt H rec id nd u q = .ok u' ∧ Loop txt H root nd g0 (done ++ [q]) u' ∧ nd.str ∈ u'.nodes := by
  obtain ⟨hdot1, hdot2⟩ := hD.dots id nd hr hid
  have hqk : q.1 ∈ nd.setters.keys := List.mem_map.2 ⟨q, hq, rfl⟩
  have hqd := hdot2 q.1 hqk
  have hxn : fullName nd.str q.1 ∉ u.params := fun h => hqn (hL.own q.1 hqd h)
  have hxc : ∀ k v, fullName nd.str q.1 ≠ constEntry txt k v := fun k v => hD.noConst id nd q.1 k v hr hid
  -- after add_parameter
  let u0 : DepGraph := { u with nodes := if nd.str ∈ u.nodes then u.nodes else u.nodes ++ [nd.str] }
  have hu0 : Basic u0 := ⟨hL.gi.basic.nodup, hL.gi.basic.keysI, hL.gi.basic.keysO, hL.gi.basic.cnt⟩
  have hn0 : ∀ m, m ∈ u0.nodes ↔ m = nd.str ∨ m ∈ u.nodes := by
    intro m
    simp only [u0]
    split
    · rename_i h; exact ⟨Or.inr, fun e => e.elim (fun e => e ▸ h) (fun e => e)⟩
    · simp [or_comm]
  obtain ⟨a1, a2, a3, a4, a5, a6⟩ := addFull_spec hu0 (fullName nd.str q.1)
  have hu1 : u.addParameter q.1 nd.str = u0.addFull (fullName nd.str q.1) := rfl
  generalize hu1d : u0.addFull (fullName nd.str q.1) = u1 at a1 a2 a3 a4 a5 a6 hu1
  have hn1 : ∀ m, m ∈ u1.nodes ↔ m = nd.str ∨ m ∈ u.nodes := by intro m; rw [a5]; exact hn0 m
  have hi1 : ∀ y, inc u1 y = inc u y := fun y => a2 y
  have ho1 : ∀ y, out u1 y = out u y := fun y => a3 y
  have hp1 : ∀ y, y ∈ u1.params ↔ y = fullName nd.str q.1 ∨ y ∈ u.params := fun y => a4 y
  have gi1 : GI txt H root u1 := by
    refine ⟨a1, ?_, ?_⟩
    · intro m hm
      rcases (hn1 m).1 hm with rfl | hm
      · exact ⟨id, nd, hr, hid, rfl⟩
      · exact hL.gi.nodesR m hm
    · intro x hx
      rcases (hp1 x).1 hx with rfl | hx
      · exact Or.inl ⟨id, nd, q.1, hr, hid, (hn1 _).2 (Or.inl rfl), hqk, rfl⟩
      · rcases hL.gi.kind x hx with ⟨i, n, p, h1, h2, h3, h4⟩ | ⟨k, v, y, h1, h2, h3, h4⟩
        · exact Or.inl ⟨i, n, p, h1, h2, (hn1 _).2 (Or.inr h3), h4⟩
        · exact Or.inr ⟨k, v, y, by rw [a6]; exact h1, h2, by rw [ho1]; exact h3, by rw [hi1]; exact h4⟩
  have hx1 : inc u1 (fullName nd.str q.1) = [] := by rw [hi1]; exact hL.gi.basic.inc_absent hxn
  have huu1 : ∀ x ∈ u.params, x ∈ u1.params ∧ inc u1 x = inc u x := fun x hx => ⟨(hp1 x).2 (Or.inr hx), hi1 x⟩
  -- closing the iteration from a graph `u'` that extends `u1`
  have close : ∀ (u' : DepGraph), GI txt H root u' → (∀ m ∈ u1.nodes, m ∈ u'.nodes) →
      (∀ x ∈ u1.params, x ∈ u'.params) → (∀ x ∈ u1.params, x ≠ fullName nd.str q.1 → inc u' x = inc u1 x) →
      (∀ m ∈ u'.nodes, m ∉ u1.nodes → FinName txt H root u' m) →
      (∀ x ∈ u'.params, x ∉ u1.params → (∃ k v, x = constEntry txt k v) ∨
        ∃ id nd p, Reach H [root] id ∧ H[id]? = some nd ∧ nd.str ∉ u1.nodes ∧ p ∈ nd.setters.keys ∧ x = fullName nd.str p) →
      Pre txt H nd q.2.src (inc u' (fullName nd.str q.1)) →
      Loop txt H root nd g0 (done ++ [q]) u' ∧ nd.str ∈ u'.nodes := by
    intro u' c1 c2 c3 c4 c5 c6 c7
    have hext : ∀ x ∈ u.params, x ∈ u'.params ∧ inc u' x = inc u x := by
      intro x hx
      have hx' := (huu1 x hx).1
      exact ⟨c3 x hx', by rw [c4 x hx' (fun e => hxn (e ▸ hx))]; exact hi1 x⟩
    refine ⟨⟨c1, ?_, ?_, ?_, ?_, ?_, ?_⟩, c2 _ ((hn1 _).2 (Or.inl rfl))⟩
    · intro m hm; exact c2 m ((hn1 m).2 (Or.inr (hL.nodes m hm)))
    · intro x hx
      obtain ⟨h1, h2⟩ := hL.params x hx
      obtain ⟨h3, h4⟩ := hext x h1
      exact ⟨h3, h4.trans h2⟩
    · intro p hpd hm
      rw [List.map_append, List.mem_append]
      by_cases h1 : fullName nd.str p ∈ u1.params
      · rcases (hp1 _).1 h1 with e | e
        · right; simp [(fullName_inj hdot1 hpd hdot1 hqd e).2]
        · left; exact hL.own p hpd e
      · exfalso
        rcases c6 _ hm h1 with ⟨k, v, e⟩ | ⟨i, n, p', h2, h3, h4, h5, e⟩
        · exact hD.noConst id nd p k v hr hid e
        · obtain ⟨d1, d2⟩ := hD.dots i n h2 h3
          have := (fullName_inj hdot1 hpd d1 (d2 p' h5) e).1
          exact h4 ((hn1 _).2 (Or.inl this.symm))
    · intro x hx
      rcases List.mem_append.1 hx with hx | hx
      · obtain ⟨h1, h2⟩ := hL.preds x hx
        obtain ⟨h3, h4⟩ := hext _ h1
        exact ⟨h3, by rw [h4]; exact h2⟩
      · simp at hx; subst hx
        exact ⟨c3 _ ((hp1 _).2 (Or.inl rfl)), c7⟩
    · intro m hm h1 h2
      by_cases h3 : m ∈ u1.nodes
      · rcases (hn1 m).1 h3 with e | e
        · exact absurd e h2
        · exact (hL.fin m e h1 h2).mono hext
      · exact c5 m hm h3
    · intro x hx h1
      by_cases h2 : x ∈ u1.params
      · rcases (hp1 x).1 h2 with rfl | h2
        · exact Or.inr ⟨id, nd, q.1, hr, hid, hfresh, hqk, rfl⟩
        · exact hL.new x h2 h1
      · rcases c6 x hx h2 with h3 | ⟨i, n, p, h3, h4, h5, h6⟩
        · exact Or.inl h3
        · exact Or.inr ⟨i, n, p, h3, h4, fun h => h5 ((hn1 _).2 (Or.inr (hL.nodes _ h))), h6⟩
  unfold Heap.depStep
  simp only [hu1]
  cases hdep : q.2.src.dep with
  | some d =>
    obtain ⟨hreads, x, htar, hsrc⟩ := reads_of_dep hid hq hdep
    have hrk := hD.acyclic id d hr hreads
    have hne : d ≠ id := by rintro rfl; exact absurd hrk (Nat.lt_irrefl _)
    have hrd : Reach H [root] d := Reach.step hr hreads
    obtain ⟨dn, hdn, hxk⟩ := hD.targets id nd hr hid q hq d x hsrc
    have hneed : Needs txt H root rank d u1 := by
      refine ⟨gi1, ?_⟩
      intro m hm
      rcases (hn1 m).1 hm with rfl | hm
      · exact Or.inr ⟨id, nd, hr, hid, rfl, hrk⟩
      · by_cases h0 : m ∈ g0.nodes
        · rcases hN.2 m h0 with h | ⟨j, nj, h1, h2, h3, h4⟩
          · left
            exact (h.mono hL.params).mono huu1
          · exact Or.inr ⟨j, nj, h1, h2, h3, Nat.lt_trans hrk h4⟩
        · by_cases h1 : m = nd.str
          · exact Or.inr ⟨id, nd, hr, hid, h1.symm, hrk⟩
          · exact Or.inl ((hL.fin m hm h0 h1).mono huu1)
    obtain ⟨g2, hg2, gi2, fr2, ⟨dn', hdn', hfin⟩, hnew2⟩ := hrec d u1 hrd hrk hneed
    rw [hdn] at hdn'; cases hdn'
    simp only [ne_eq, hne, not_false_eq_true, if_true, hdn, bind, Except.bind, hg2, htar]
    obtain ⟨qq, hqq, rfl⟩ := List.mem_map.1 hxk
    obtain ⟨ht1, _⟩ := hfin qq.1 qq.2 hqq
    have hx2 : fullName nd.str q.1 ∈ g2.params := (fr2.params _ ((hp1 _).2 (Or.inl rfl))).1
    have hi2 : inc g2 (fullName nd.str q.1) = [] := by
      rw [(fr2.params _ ((hp1 _).2 (Or.inl rfl))).2]; exact hx1
    obtain ⟨g3, e1, e2, e3, e4, e5, e6⟩ := edge_gi gi2 ht1 hx2
      (fun k v => hD.noConst d dn qq.1 k v hrd hdn) hxc
    refine ⟨g3, e1, ?_⟩
    have h23 : ∀ y, y ≠ fullName nd.str q.1 → inc g3 y = inc g2 y := by
      intro y hy; rw [e6, if_neg (fun e => hy e.symm)]
    refine close g3 e2 (fun m hm => by rw [e4]; exact fr2.nodes m hm) (fun y hy => by rw [e3]; exact (fr2.params y hy).1)
      (fun y hy hne => by rw [h23 y hne]; exact (fr2.params y hy).2) ?_ ?_ ?_
    · intro m hm hm1
      rw [e4] at hm
      obtain ⟨i, n, h1, h2, h3, h4⟩ := hnew2 m hm hm1
      refine ⟨i, n, h1, h2, h3, ?_⟩
      intro p st hp
      obtain ⟨f1, f2⟩ := h4 p st hp
      refine ⟨by rw [e3]; exact f1, ?_⟩
      rw [h23]
      · exact f2
      · intro e
        obtain ⟨d1, d2⟩ := hD.dots i n h1 h2
        have := (fullName_inj d1 (d2 p (List.mem_map.2 ⟨_, hp, rfl⟩)) hdot1 hqd e).1
        exact hm1 ((hn1 m).2 (Or.inl (h3.symm.trans this)))
    · intro y hy hy1; rw [e3] at hy; exact fr2.new y hy hy1
    · rw [e6, if_pos rfl, hi2]
      rcases hsrc with hs | hs <;> rw [hs] <;> exact ⟨dn, hdn, rfl⟩
  | none =>
    simp only
    have triv : ∀ s : Src α, q.2.src = s → Pre txt H nd s [] → 
        Loop txt H root nd g0 (done ++ [q]) u1 ∧ nd.str ∈ u1.nodes := by
      intro s hs hp
      exact close u1 gi1 (fun _ h => h) (fun _ h => h) (fun _ _ _ => rfl) (fun m h1 h2 => absurd h1 h2)
        (fun x h1 h2 => absurd h1 h2) (by rw [hx1, hs]; exact hp)
    cases hs : q.2.src with
    | undefined => exact ⟨u1, rfl, triv _ hs rfl⟩
    | computeOut o => exact ⟨u1, rfl, triv _ hs rfl⟩
    | modelParam d x => rw [hs] at hdep; cases hdep
    | funcNode d x => rw [hs] at hdep; cases hdep
    | const v =>
      obtain ⟨g3, e1, e2, e3, e4, e5⟩ := const_gi hD gi1 v ((hp1 (fullName nd.str q.1)).2 (Or.inl rfl)) hxc
      refine ⟨g3, e1, ?_⟩
      refine close g3 e2 (fun m hm => by rw [e3]; exact hm) (fun y hy => (e4 y).2 (Or.inr hy))
        (fun y hy hne => by rw [e5, if_neg (fun e => hne e.symm)]) (fun m h1 h2 => absurd (by rw [e3] at h1; exact h1) h2) ?_ ?_
      · intro y hy hy1
        rcases (e4 y).1 hy with rfl | hy
        · exact Or.inl ⟨_, _, rfl⟩
        · exact absurd hy hy1
      · rw [e5, if_pos rfl, hx1, hs]; exact ⟨_, rfl⟩

end LCL.DepLemmas
