import Verif.Model.PhysicalInit
import Verif.Props.NodeApi
import Verif.Props.Nodes1

/-!
# Lemmas about constructors as sequences of API calls
-/

namespace LCL.InitLemmas
open LCL LCL.NodeSpec LCL.ApiSpec LCL.ApiLemmas LCL.PhysicalInit
variable {α σ : Type}

theorem runOps_applyAll : ∀ (ops : List (ApiOp α σ)) (H H' : Heap α σ), runOps H ops = .ok H' → H.applyAll ops = H'
  | [], H, H', h => by injection h
  | op :: ops, H, H', h => by
    unfold runOps at h
    show ((H.apply op).1).applyAll ops = H'
    cases hop : H.apply op with
    | mk K e =>
      rw [hop] at h
      cases e with
      | none => exact runOps_applyAll ops K H' h
      | some e => cases h

theorem applyAll_append (H : Heap α σ) (a b : List (ApiOp α σ)) : H.applyAll (a ++ b) = (H.applyAll a).applyAll b := by
  unfold Heap.applyAll; rw [List.foldl_append]

theorem keeps_append : ∀ (a : List (ApiOp α σ)) (H : Heap α σ) (b : List (ApiOp α σ)), KeepsOutputs H a → KeepsOutputs (H.applyAll a) b →
    KeepsOutputs H (a ++ b)
  | [], _, _, _, h => h
  | _ :: a, _, b, h1, h2 => ⟨h1.1, keeps_append a _ b h1.2 h2⟩

/-- A call that is not `set_parameter`. -/
def NotSet : ApiOp α σ → Prop
  | .setParameter _ _ _ _ => False
  | _ => True

theorem keeps_notSet : ∀ (a : List (ApiOp α σ)) (H : Heap α σ), (∀ op ∈ a, NotSet op) → KeepsOutputs H a
  | [], _, _ => trivial
  | op :: a, H, h => by
    refine ⟨?_, keeps_notSet a _ (fun o ho => h o (List.mem_cons_of_mem _ ho))⟩
    have := h op (by simp)
    cases op <;> first | trivial | exact absurd this id

/-- Sources that later calls do not target stay. -/
theorem source_later (id : NodeId) (name : Name) : ∀ (ops : List (ApiOp α σ)) (K : Heap α σ), id < K.length →
    (∀ op ∈ ops, ¬ Targets id name op) → sourceOf (K.applyAll ops) id name = sourceOf K id name
  | [], _, _, _ => rfl
  | op :: ops, K, hk, hops => by
    obtain ⟨f1, f2⟩ := ApiProps.C59_frame K op id hk name (hops op (by simp))
    show sourceOf ((K.apply op).1.applyAll ops) id name = _
    rw [source_later id name ops _ (Nat.lt_of_lt_of_le hk f2) (fun o ho => hops o (List.mem_cons_of_mem _ ho)), f1]

theorem length_later : ∀ (ops : List (ApiOp α σ)) (K : Heap α σ), K.length ≤ (K.applyAll ops).length
  | [], _ => Nat.le_refl _
  | op :: ops, K => by
    have h : K.length ≤ (K.apply op).1.length := by
      rcases Nat.eq_zero_or_pos K.length with h0 | h0
      · omega
      · cases op with
        | newNode c l a => simp [Heap.apply, Heap.newNode]
        | newFunction c l f b a o k => exact (ApiProps.C59_frame K (.newFunction c l f b a o k) 0 h0 [] (by intro h; exact h)).2
        | setGraphPositions r o => exact (ApiProps.C59_frame K (.setGraphPositions r o) 0 h0 [] (by intro h; exact h)).2
        | addParameter i n v g k => exact (ApiProps.C59_frame K (.addParameter i n v g k) 0 h0 ('x' :: n) (by intro h; exact absurd h.2 (by intro e; have := congrArg List.length e; simp at this))).2
        | setParameter i n v k => exact (ApiProps.C59_frame K (.setParameter i n v k) 0 h0 ('x' :: n) (by intro h; exact absurd h.2 (by intro e; have := congrArg List.length e; simp at this))).2
        | setAllowGradient i n g => exact (ApiProps.C59_frame K (.setAllowGradient i n g) 0 h0 ('x' :: n) (by intro h; exact absurd h.2 (by intro e; have := congrArg List.length e; simp at this))).2
    exact Nat.le_trans h (length_later ops _)

/-- The parts of a node that no call changes once it is built. -/
def SameCore (a b : PNode α σ) : Prop := a.isFunc = b.isFunc ∧ a.body = b.body ∧ a.argNames = b.argNames ∧ a.outputs = b.outputs

theorem core_op (H : Heap α σ) (op : ApiOp α σ) (j : NodeId) (nd : PNode α σ) (hj : H[j]? = some nd) :
    ∃ nd', (H.apply op).1[j]? = some nd' ∧ SameCore nd nd' := by
  have hlt := lt_of_get hj
  cases op with
  | newNode c l a =>
    simp only [Heap.apply, Heap.newNode]
    rw [List.getElem?_append_left hlt]
    exact ⟨nd, hj, rfl, rfl, rfl, rfl⟩
  | newFunction c l f b a o k =>
    simp only [Heap.apply, Heap.newFunction]
    split
    · exact ⟨nd, hj, rfl, rfl, rfl, rfl⟩
    · rename_i H' n h
      obtain ⟨_, _, h3, _⟩ := newFunction_spec wrap0_same wrap0_inv h
      exact ⟨nd, by rw [← hj]; exact h3 j hlt, rfl, rfl, rfl, rfl⟩
  | addParameter i n v g k =>
    simp only [Heap.apply, Heap.addParameter]
    by_cases hi : i < H.length
    · have hid : H[i]? = some H[i] := List.getElem?_eq_getElem hi
      rcases addWith_spec (wrap_same k) hid n (Heap.pickValue n v k) g with
        ⟨hk, h⟩ | ⟨ha, hk, e, h⟩ | ⟨ha, hk, H1, st, K, hd, he, hext, hext1, hlen1, hget⟩
      · rw [h]; exact ⟨nd, hj, rfl, rfl, rfl, rfl⟩
      · rw [h]
        simp only [Heap.clearPos, Heap.putSource, modify_get]
        by_cases hij : i = j
        · subst hij
          rw [if_pos rfl, if_pos rfl, hj]
          exact ⟨_, rfl, rfl, rfl, rfl, rfl⟩
        · rw [if_neg hij, if_neg hij]
          exact ⟨nd, hj, rfl, rfl, rfl, rfl⟩
      · rw [he]
        by_cases hij : j = i
        · subst hij
          rw [hj] at hid
          injection hid with hid
          refine ⟨_, hget, ?_⟩
          rw [← hid]
          exact ⟨rfl, rfl, rfl, rfl⟩
        · exact ⟨nd, by rw [← hj]; exact hext.same j hlt hij, rfl, rfl, rfl, rfl⟩
    · have : H[i]? = none := List.getElem?_eq_none (Nat.le_of_not_lt hi)
      simp only [Heap.addWith, this]
      exact ⟨nd, hj, rfl, rfl, rfl, rfl⟩
  | setParameter i n v k =>
    simp only [Heap.apply, Heap.setParameter]
    have hclear : ∃ nd', (H.clearPos i)[j]? = some nd' ∧ SameCore nd nd' := by
      simp only [Heap.clearPos, modify_get]
      by_cases hij : i = j
      · rw [if_pos hij, hj]; exact ⟨_, rfl, rfl, rfl, rfl, rfl⟩
      · rw [if_neg hij]; exact ⟨nd, hj, rfl, rfl, rfl, rfl⟩
    by_cases hi : i < H.length
    · have hid : H[i]? = some H[i] := List.getElem?_eq_getElem hi
      rcases setWith_spec (wrap_same k) hid n (Heap.pickValue n v k) with
        ⟨hk, h⟩ | ⟨hk, e, h⟩ | ⟨hk, H1, st, K, hd, he, hK, hext, hget⟩
      · rw [h]; exact hclear
      · rw [h]; exact hclear
      · rw [he]
        by_cases hij : j = i
        · subst hij
          rw [hj] at hid
          injection hid with hid
          refine ⟨_, hget, ?_⟩
          rw [← hid]
          exact ⟨rfl, rfl, rfl, rfl⟩
        · exact ⟨nd, by rw [← hj]; exact hext.same j hlt hij, rfl, rfl, rfl, rfl⟩
    · have h0 : H[i]? = none := List.getElem?_eq_none (Nat.le_of_not_lt hi)
      have h1 : (H.clearPos i)[i]? = none := by unfold Heap.clearPos; rw [modify_get, if_pos rfl, h0]; rfl
      simp only [Heap.setWith, h1]
      exact hclear
  | setAllowGradient i n g =>
    simp only [Heap.apply, Heap.setAllowGradient]
    split
    · exact ⟨nd, hj, rfl, rfl, rfl, rfl⟩
    · split
      · simp only [Heap.overrideGradient, modify_get]
        by_cases hij : i = j
        · rw [if_pos hij, hj]; exact ⟨_, rfl, rfl, rfl, rfl, rfl⟩
        · rw [if_neg hij]; exact ⟨nd, hj, rfl, rfl, rfl, rfl⟩
      · exact ⟨nd, hj, rfl, rfl, rfl, rfl⟩
  | setGraphPositions r o =>
    simp only [Heap.apply]
    split
    · rename_i H' h
      unfold Heap.setPositions at h
      cases hv : H.visitAll (r :: o) with
      | error e => rw [hv] at h; cases h
      | ok order =>
        rw [hv] at h; cases h
        rw [NodeProps.assign_get, hj]
        simp only [Option.map_some]
        split
        · exact ⟨_, rfl, rfl, rfl, rfl, rfl⟩
        · exact ⟨_, rfl, rfl, rfl, rfl, rfl⟩
    · exact ⟨nd, hj, rfl, rfl, rfl, rfl⟩

theorem core_later (j : NodeId) : ∀ (ops : List (ApiOp α σ)) (H : Heap α σ) (nd : PNode α σ), H[j]? = some nd →
    ∃ nd', (H.applyAll ops)[j]? = some nd' ∧ SameCore nd nd'
  | [], _, nd, h => ⟨nd, h, rfl, rfl, rfl, rfl⟩
  | op :: ops, H, nd, h => by
    obtain ⟨n1, h1, c1⟩ := core_op H op j nd h
    obtain ⟨n2, h2, c2⟩ := core_later j ops (H.apply op).1 n1 h1
    exact ⟨n2, h2, c1.1.trans c2.1, c1.2.1.trans c2.2.1, c1.2.2.1.trans c2.2.2.1, c1.2.2.2.trans c2.2.2.2⟩

/-- Every logged call is a call of the node's function. -/
theorem thread_call {H : Heap α σ} {n : Nat} {w : σ} {calls : List (NodeId × Dict Name (Val α) × Val α)} {w' : σ} (h : Thread H n w calls w') :
    ∀ id args res, (id, args, res) ∈ calls → ∃ nd f w1 w2, H[id]? = some nd ∧ nd.body = some f ∧ f w1 n args = (w2, .ok res) := by
  induction h with
  | nil => intro _ _ _ h; simp at h
  | snoc _ h1 h2 h3 ih =>
    intro id args res hm
    rcases List.mem_append.mp hm with hm | hm
    · exact ih id args res hm
    · simp at hm
      obtain ⟨rfl, rfl, rfl⟩ := hm
      exact ⟨_, _, _, _, h1, h2, h3⟩

theorem modify_last (H : Heap α σ) (nd : PNode α σ) (f : PNode α σ → PNode α σ) :
    Heap.modifyNode (H ++ [nd]) H.length f = H ++ [f nd] := by
  apply List.ext_getElem?
  intro j
  rw [modify_get]
  rcases Nat.lt_trichotomy j H.length with h | h | h
  · rw [if_neg (Nat.ne_of_gt h), List.getElem?_append_left h, List.getElem?_append_left h]
  · subst h; rw [if_pos rfl]; simp
  · rw [if_neg (Nat.ne_of_lt h), List.getElem?_eq_none (by simp; omega), List.getElem?_eq_none (by simp; omega)]

theorem get_last (H : Heap α σ) (nd : PNode α σ) : (H ++ [nd])[H.length]? = some nd := by simp

end LCL.InitLemmas
