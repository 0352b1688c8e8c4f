import Verif.Spec.NodeApi

/-!
# Lemmas about graph building
-/

namespace LCL.ApiLemmas
open LCL LCL.NodeSpec LCL.ApiSpec
variable {α σ : Type}

abbrev Mk (α σ : Type) := Heap α σ → Name → Body α σ → Except Err (Heap α σ × NodeId)

theorem set_set (d : Dict Name (Setter α)) (k : Name) (a b : Setter α) :
    (d.set k a).set k b = d.set k b := by
  induction d with
  | nil => simp [Dict.set]
  | cons q d ih =>
    obtain ⟨k', v⟩ := q
    by_cases h : k' = k
    · simp [Dict.set, h]
    · simp only [Dict.set, h, if_false]; rw [ih]

/-- Only node `id` is touched; nodes may be appended. -/
structure Ext (id : NodeId) (H H' : Heap α σ) : Prop where
  len : H.length ≤ H'.length
  same : ∀ j, j < H.length → j ≠ id → H'[j]? = H[j]?

theorem Ext.refl (id : NodeId) (H : Heap α σ) : Ext id H H := ⟨Nat.le_refl _, fun _ _ _ => rfl⟩
theorem Ext.trans {id : NodeId} {A B C : Heap α σ} (h1 : Ext id A B) (h2 : Ext id B C) : Ext id A C :=
  ⟨Nat.le_trans h1.len h2.len, fun j hj hne =>
    (h2.same j (Nat.lt_of_lt_of_le hj h1.len) hne).trans (h1.same j hj hne)⟩

theorem modify_get (H : Heap α σ) (id j : NodeId) (f : PNode α σ → PNode α σ) :
    (H.modifyNode id f)[j]? = if id = j then H[j]?.map f else H[j]? := by
  unfold Heap.modifyNode
  rw [List.getElem?_modify]
  split
  · rfl
  · cases H[j]? <;> rfl

theorem modify_length (H : Heap α σ) (id : NodeId) (f : PNode α σ → PNode α σ) :
    (H.modifyNode id f).length = H.length := by simp [Heap.modifyNode]

theorem modify_ext (H : Heap α σ) (id : NodeId) (f : PNode α σ → PNode α σ) :
    Ext id H (H.modifyNode id f) :=
  ⟨by simp [Heap.modifyNode], fun j _ hne => by
    rw [modify_get, if_neg (fun e => hne e.symm)]⟩

/-- What wrapping a callable guarantees. -/
def MkSame (mk : Mk α σ) : Prop :=
  ∀ (H : Heap α σ) f b H' n, mk H f b = .ok (H', n) →
    H.length ≤ n ∧ n < H'.length ∧ H.length ≤ H'.length ∧ ∀ j : NodeId, j < H.length → H'[j]? = H[j]?

/-- The source a value denotes, with the new heap after wrapping (the shared part of
`Means`, without details of the new node). -/
inductive Den (mk : Mk α σ) (H : Heap α σ) (id : NodeId) (name : Name) :
    PyVal α σ → Heap α σ → Setter α → Prop
  | const {v} : Den mk H id name (.const v) H ⟨.const v, true⟩
  | getter {parent pn m} : H[parent]? = some pn → m ∈ pn.setters.keys →
      Den mk H id name (.method parent m) H ⟨.modelParam parent m, false⟩
  | func {f b H' n} : mk H f b = .ok (H', n) →
      Den mk H id name (.func f b) H' ⟨.funcNode n resultName, false⟩
  | fnode {v vn} : H[v]? = some vn → vn.isFunc = true → Den mk H id name (.node v) H
      ⟨.funcNode v (if name ∈ vn.outputs then name else resultName), false⟩
  | node {v vn} : H[v]? = some vn → vn.isFunc = false → v ≠ id → name ∈ vn.setters.keys →
      Den mk H id name (.node v) H ⟨.modelParam v name, false⟩

theorem setSource_spec (mk : Mk α σ) (H : Heap α σ) (id : NodeId) (name : Name) (v : PyVal α σ) :
    (∃ H1 st, Den mk H id name v H1 st ∧ H.setSource mk id name v = (H1.putSource id name st, none)) ∨
    (∃ e, H.setSource mk id name v = (H, some e)) := by
  unfold Heap.setSource
  cases v with
  | const v => exact Or.inl ⟨H, _, .const, rfl⟩
  | method parent m =>
    simp only
    split
    · exact Or.inr ⟨_, rfl⟩
    · rename_i pn hp
      split
      · rename_i hm
        exact Or.inl ⟨H, _, .getter hp ((Dict.has_iff _ _).1 hm), rfl⟩
      · exact Or.inr ⟨_, rfl⟩
  | func f b =>
    simp only
    split
    · exact Or.inr ⟨_, rfl⟩
    · rename_i H' n hmk
      exact Or.inl ⟨H', _, .func hmk, rfl⟩
  | node v =>
    simp only
    split
    · exact Or.inr ⟨_, rfl⟩
    · rename_i vn hv
      split
      · rename_i hf
        exact Or.inl ⟨H, _, .fnode hv hf, rfl⟩
      · rename_i hf
        split
        · exact Or.inr ⟨_, rfl⟩
        · rename_i hne
          split
          · rename_i hm
            exact Or.inl ⟨H, _, .node hv (by simpa using hf) hne ((Dict.has_iff _ _).1 hm), rfl⟩
          · exact Or.inr ⟨_, rfl⟩

theorem Den.same {mk : Mk α σ} (hmk : MkSame mk) {H H1 : Heap α σ} {id : NodeId} {name : Name}
    {v : PyVal α σ} {st : Setter α} (h : Den mk H id name v H1 st) :
    H.length ≤ H1.length ∧ ∀ j : NodeId, j < H.length → H1[j]? = H[j]? := by
  cases h with
  | func h => obtain ⟨_, _, h3, h4⟩ := hmk _ _ _ _ _ h; exact ⟨h3, h4⟩
  | _ => exact ⟨Nat.le_refl _, fun _ _ => rfl⟩

/-- Effect of `set_parameter`. -/
theorem setWith_spec {mk : Mk α σ} (hmk : MkSame mk) {H : Heap α σ} {id : NodeId} {nd : PNode α σ}
    (hid : H[id]? = some nd) (name : Name) (v : PyVal α σ) :
    (name ∉ nd.setters.keys ∧ H.setWith mk id name v = (H.clearPos id, some .keyError)) ∨
    (name ∈ nd.setters.keys ∧ ∃ e, H.setWith mk id name v = (H.clearPos id, some e)) ∨
    (name ∈ nd.setters.keys ∧ ∃ H1 st H', Den mk (H.clearPos id) id name v H1 st ∧
      H.setWith mk id name v = (H', none) ∧ H' = H1.putSource id name st ∧ Ext id H H' ∧
      H'[id]? = some { nd with pos := none, setters := nd.setters.set name st }) := by
  have hc : (H.clearPos id)[id]? = some { nd with pos := none } := by
    unfold Heap.clearPos; rw [modify_get, if_pos rfl, hid]; rfl
  have hcl : (H.clearPos id).length = H.length := by simp [Heap.clearPos, Heap.modifyNode]
  have hidl : id < H.length := by
    rcases Nat.lt_or_ge id H.length with h | h
    · exact h
    · rw [List.getElem?_eq_none h] at hid; cases hid
  unfold Heap.setWith
  simp only [hc]
  by_cases hk : name ∈ nd.setters.keys
  · right
    rw [if_pos ((Dict.has_iff _ _).2 hk)]
    rcases setSource_spec mk (H.clearPos id) id name v with ⟨H1, st, hd, he⟩ | ⟨e, he⟩
    · right
      obtain ⟨g1, g2⟩ := hd.same hmk
      refine ⟨hk, H1, st, _, hd, he, rfl, ?_, ?_⟩
      · have e1 : Ext id H (H.clearPos id) := modify_ext _ _ _
        have e2 : Ext id (H.clearPos id) H1 := ⟨g1, fun j hj _ => g2 j hj⟩
        exact (e1.trans e2).trans (modify_ext _ _ _)
      · unfold Heap.putSource
        rw [modify_get, if_pos rfl, g2 id (by rw [hcl]; exact hidl), hc]
        rfl
    · exact Or.inl ⟨hk, e, he⟩
  · left
    refine ⟨hk, ?_⟩
    rw [if_neg (by rw [Dict.has_iff]; exact hk)]

/-- The gradient flag after an optional override. -/
def withGradient (st : Setter α) : Option Bool → Setter α
  | none => st
  | some g => { st with allowGradient := g }

theorem override_get (H : Heap α σ) (id : NodeId) (name : Name) (g : Option Bool) (nd : PNode α σ)
    (hid : H[id]? = some nd) (st : Setter α) (hst : nd.setters.get? name = some st)
    (hself : nd.setters.set name st = nd.setters) :
    Ext id H (H.overrideGradient id name g) ∧ (H.overrideGradient id name g)[id]? =
      some { nd with setters := nd.setters.set name (withGradient st g) } := by
  cases g with
  | none => exact ⟨Ext.refl _ _, by rw [show H.overrideGradient id name none = H from rfl, hid]; simp [withGradient, hself]⟩
  | some g =>
    refine ⟨modify_ext _ _ _, ?_⟩
    unfold Heap.overrideGradient
    rw [modify_get, if_pos rfl, hid]
    simp [hst, withGradient]

/-- Effect of `add_parameter`. -/
theorem addWith_spec {mk : Mk α σ} (hmk : MkSame mk) {H : Heap α σ} {id : NodeId} {nd : PNode α σ}
    (hid : H[id]? = some nd) (name : Name) (v : PyVal α σ) (g : Option Bool) :
    ((name ∈ nd.attrs ∨ name ∈ nd.setters.keys) ∧ H.addWith mk id name v g = (H, some .keyError)) ∨
    (name ∉ nd.attrs ∧ name ∉ nd.setters.keys ∧ ∃ e, H.addWith mk id name v g =
      ((H.putSource id name ⟨.undefined, false⟩).clearPos id, some e)) ∨
    (name ∉ nd.attrs ∧ name ∉ nd.setters.keys ∧ ∃ H1 st H',
      Den mk ((H.putSource id name ⟨.undefined, false⟩).clearPos id) id name v H1 st ∧
      H.addWith mk id name v g = (H', none) ∧ Ext id H H' ∧ Ext id H1 H' ∧ H'.length = H1.length ∧
      H'[id]? = some { nd with
        pos := none
        setters := nd.setters.set name (withGradient st g)
        attrs := nd.attrs ++ [name] }) := by
  unfold Heap.addWith
  simp only [hid]
  by_cases hk : name ∈ nd.setters.keys
  · left
    refine ⟨Or.inr hk, ?_⟩
    have := (Dict.has_iff nd.setters name).2 hk
    simp [this]
  · have hk' : nd.setters.has name = false := (Dict.has_eq_false_iff _ _).2 hk
    by_cases ha : name ∈ nd.attrs
    · left; exact ⟨Or.inl ha, by simp [ha, hk']⟩
    · right
      rw [if_neg (by simp [ha]), if_neg (by simp [hk'])]
      have hp : (H.putSource id name ⟨.undefined, false⟩)[id]? =
          some { nd with setters := nd.setters.set name ⟨.undefined, false⟩ } := by
        unfold Heap.putSource; rw [modify_get, if_pos rfl, hid]; rfl
      rcases setWith_spec hmk hp name v with ⟨h1, _⟩ | ⟨_, e, he⟩ | ⟨_, H1, st, H', hd, he, hH', hext, hget⟩
      · exact absurd ((Dict.mem_keys_set _ _ _ _).2 (Or.inl rfl)) h1
      · left; exact ⟨ha, hk, e, by simp only [he]⟩
      · right
        refine ⟨ha, hk, H1, st, (H'.overrideGradient id name g).modifyNode id
          (fun n => { n with attrs := n.attrs ++ [name] }), hd, by simp only [he], ?_⟩
        simp only [set_set] at hget
        have hst : (nd.setters.set name st).get? name = some st := by simp
        have hself : (nd.setters.set name st).set name st = nd.setters.set name st := set_set _ _ _ _
        obtain ⟨o1, o2⟩ := override_get H' id name g _ hget st hst hself
        simp only [set_set] at o2
        refine ⟨?_, ?_, ?_, ?_⟩
        · exact ((modify_ext H id _).trans hext).trans (o1.trans (modify_ext _ _ _))
        · rw [hH'] at o1 ⊢
          exact ((modify_ext H1 id _).trans o1).trans (modify_ext _ _ _)
        · have : (H'.overrideGradient id name g).length = H'.length := by
            cases g <;> simp [Heap.overrideGradient, Heap.modifyNode]
          rw [hH'] at this
          rw [modify_length, hH', this]; exact modify_length _ _ _
        · rw [modify_get, if_pos rfl, o2]; rfl

/-! ## Well-formedness is preserved -/

/-- `GraphOK`, node by node. -/
structure NodeOK (L : Nat) (nd : PNode α σ) : Prop where
  keys : nd.setters.keys.Nodup
  links : ∀ p st, nd.setters.get? p = some st → ∀ d, st.src.dep = some d → d < L
  outs : ∀ p, p ∈ nd.outputs ↔ ∃ st q, nd.setters.get? p = some st ∧ st.src = .computeOut q
  outsNodup : nd.outputs.Nodup
  plain : nd.isFunc = false → nd.outputs = []
  args : ∀ a ∈ nd.argNames, a ∉ nd.outputs

theorem NodeOK.mono {L L' : Nat} (h : L ≤ L') {nd : PNode α σ} (hn : NodeOK L nd) : NodeOK L' nd :=
  ⟨hn.keys, fun p st hp d hd => Nat.lt_of_lt_of_le (hn.links p st hp d hd) h, hn.outs, hn.outsNodup,
    hn.plain, hn.args⟩

theorem graphOK_iff (H : Heap α σ) : GraphOK H ↔ ∀ nd ∈ H, NodeOK H.length nd := by
  constructor
  · intro h nd hm
    refine ⟨h.keys nd hm, ?_, ?_, h.outsNodup nd hm, h.plain nd hm, h.args nd hm⟩
    · intro p st hp d hd
      exact h.links nd hm (p, st) (Dict.mem_of_get? hp) d hd
    · intro p
      rw [h.outs nd hm p]
      simp only [Dict.get?_iff_mem (h.keys nd hm)]
  · intro h
    refine ⟨fun nd hm => (h nd hm).keys, ?_, ?_, fun nd hm => (h nd hm).outsNodup,
      fun nd hm => (h nd hm).plain, fun nd hm => (h nd hm).args⟩
    · rintro nd hm ⟨p, st⟩ hq d hd
      exact (h nd hm).links p st (Dict.get?_of_mem (h nd hm).keys hq) d hd
    · intro nd hm p
      rw [(h nd hm).outs p]
      simp only [Dict.get?_iff_mem (h nd hm).keys]

/-- The invariant of graph building; node `id`'s declared outputs are read as `outs` (during the
construction of a function node they are declared before they are added). -/
structure BInv (sub : NodeId → PNode α σ → List Name) (H : Heap α σ) : Prop where
  nodes : ∀ (j : NodeId) (nd : PNode α σ), H[j]? = some nd →
    NodeOK H.length ({ nd with outputs := sub j nd } : PNode α σ)
  links : LinksExist H

/-- No substitution. -/
def plainSub : NodeId → PNode α σ → List Name := fun _ nd => nd.outputs
/-- Outputs of `id` read as `outs`. -/
def subAt (id : NodeId) (outs : List Name) : NodeId → PNode α σ → List Name :=
  fun j nd => if j = id then outs else nd.outputs

theorem BInv.graphOK {H : Heap α σ} (h : BInv plainSub H) : GraphOK H := by
  rw [graphOK_iff]
  intro nd hm
  obtain ⟨j, hj, e⟩ := List.getElem_of_mem hm
  exact h.nodes j nd (by rw [List.getElem?_eq_getElem hj, e])

theorem source_get {H : Heap α σ} {id : NodeId} {nd : PNode α σ} (h : H[id]? = some nd) (p : Name) :
    sourceOf H id p = nd.setters.get? p := by unfold sourceOf; rw [h]

theorem hasParam_iff {H : Heap α σ} {id : NodeId} {p : Name} :
    HasParam H id p ↔ ∃ nd, H[id]? = some nd ∧ p ∈ nd.setters.keys := by
  unfold HasParam sourceOf
  cases h : H[id]? with
  | none => simp
  | some nd =>
    simp only [Option.some.injEq, exists_eq_left']
    rw [← Dict.has_iff]
    unfold Dict.has
    exact Option.isSome_iff_exists.symm

theorem lt_of_get {H : Heap α σ} {id : NodeId} {nd : PNode α σ} (h : H[id]? = some nd) : id < H.length := by
  rcases Nat.lt_or_ge id H.length with h' | h'
  · exact h'
  · rw [List.getElem?_eq_none h'] at h; cases h

/-- One parameter of one node gets a new source. -/
theorem BInv.put {sub : NodeId → PNode α σ → List Name} {H H' : Heap α σ} (h : BInv sub H)
    {id : NodeId} {nd nd' : PNode α σ} {name : Name} {st : Setter α}
    (hid : H[id]? = some nd) (hid' : H'[id]? = some nd') (hlen : H'.length = H.length)
    (hoth : ∀ j : NodeId, j ≠ id → H'[j]? = H[j]?)
    (hset : nd'.setters = nd.setters.set name st) (hargs : nd'.argNames = nd.argNames)
    (hfun : nd'.isFunc = nd.isFunc) (hsub : sub id nd' = sub id nd) (hnout : name ∉ sub id nd)
    (hnc : ∀ q, st.src ≠ .computeOut q)
    (hl1 : ∀ d q, st.src = .modelParam d q → HasParam H d q)
    (hl2 : ∀ d q, st.src = .funcNode d q → ∃ dn, H[d]? = some dn ∧ dn.isFunc = true) :
    BInv sub H' := by
  have hpar : ∀ d q, HasParam H d q → HasParam H' d q := by
    intro d q hp
    rw [hasParam_iff] at hp ⊢
    obtain ⟨dn, e1, e2⟩ := hp
    by_cases hd : d = id
    · subst hd
      rw [hid] at e1; cases e1
      exact ⟨nd', hid', by rw [hset, Dict.mem_keys_set]; exact Or.inr e2⟩
    · exact ⟨dn, by rw [hoth d hd]; exact e1, e2⟩
  have hfn : ∀ d : NodeId, (∃ dn, H[d]? = some dn ∧ dn.isFunc = true) → ∃ dn, H'[d]? = some dn ∧ dn.isFunc = true := by
    rintro d ⟨dn, e1, e2⟩
    by_cases hd : d = id
    · subst hd
      rw [hid] at e1; cases e1
      exact ⟨nd', hid', by rw [hfun]; exact e2⟩
    · exact ⟨dn, by rw [hoth d hd]; exact e1, e2⟩
  refine ⟨?_, ?_⟩
  · intro j n hj
    by_cases hji : j = id
    · subst hji
      rw [hid'] at hj; cases hj
      have o := h.nodes j nd hid
      refine ⟨?_, ?_, ?_, ?_, ?_, ?_⟩
      · show nd'.setters.keys.Nodup
        rw [hset]; exact Dict.nodup_set o.keys _ _
      · intro p s hp d hd
        show d < H'.length
        have hp : nd'.setters.get? p = some s := hp
        rw [hset, Dict.get?_set] at hp
        split at hp
        · cases hp
          rw [hlen]
          cases hs : st.src with
          | modelParam d' q =>
            rw [hs] at hd; cases hd
            obtain ⟨dn, e, _⟩ := hasParam_iff.1 (hl1 _ _ hs)
            exact lt_of_get e
          | funcNode d' q =>
            rw [hs] at hd; cases hd
            obtain ⟨dn, e, _⟩ := hl2 _ _ hs
            exact lt_of_get e
          | undefined => rw [hs] at hd; cases hd
          | const v => rw [hs] at hd; cases hd
          | computeOut q => rw [hs] at hd; cases hd
        · rw [hlen]; exact o.links p s hp d hd
      · intro p
        show p ∈ sub j nd' ↔ ∃ s q, nd'.setters.get? p = some s ∧ s.src = .computeOut q
        rw [hsub, o.outs p]
        show (∃ s q, nd.setters.get? p = some s ∧ s.src = .computeOut q) ↔ _
        rw [hset]
        by_cases hpn : name = p
        · subst hpn
          constructor
          · intro hex
            exact absurd ((o.outs name).2 hex) hnout
          · rintro ⟨s, q, e1, e2⟩
            rw [Dict.get?_set_self] at e1; cases e1
            exact absurd e2 (hnc q)
        · simp only [Dict.get?_set_ne _ _ hpn]
      · show (sub j nd').Nodup; rw [hsub]; exact o.outsNodup
      · intro hf; show sub j nd' = []; rw [hsub]; exact o.plain (by rw [← hfun]; exact hf)
      · intro a ha; show a ∉ sub j nd'; rw [hsub]; exact o.args a (by rw [← hargs]; exact ha)
    · rw [hoth j hji] at hj
      rw [hlen]; exact h.nodes j n hj
  · intro j p s hs
    have key : (∀ d q, s.src = .modelParam d q → HasParam H d q) ∧
        (∀ d q, s.src = .funcNode d q → ∃ dn, H[d]? = some dn ∧ dn.isFunc = true) := by
      by_cases hji : j = id
      · subst hji
        rw [source_get hid', hset, Dict.get?_set] at hs
        split at hs
        · cases hs; exact ⟨hl1, hl2⟩
        · exact h.links j p s (by rw [source_get hid]; exact hs)
      · exact h.links j p s (by unfold sourceOf at hs ⊢; rw [hoth j hji] at hs; exact hs)
    exact ⟨fun d q e => hpar _ _ (key.1 d q e), fun d q e => hfn _ (key.2 d q e)⟩

/-- Changes that touch no source. -/
theorem BInv.cosmetic {sub sub' : NodeId → PNode α σ → List Name} {H H' : Heap α σ} (h : BInv sub H)
    (hlen : H'.length = H.length)
    (hget : ∀ j nd', H'[j]? = some nd' → ∃ nd, H[j]? = some nd ∧ nd'.setters = nd.setters ∧
      nd'.isFunc = nd.isFunc ∧ sub' j nd' = sub j nd ∧ (∀ a ∈ nd'.argNames, a ∉ sub j nd)) :
    BInv sub' H' := by
  have hget' : ∀ (j : NodeId) nd, H[j]? = some nd → ∃ nd', H'[j]? = some nd' ∧ nd'.setters = nd.setters ∧
      nd'.isFunc = nd.isFunc := by
    intro j nd hj
    have hlt : j < H'.length := by rw [hlen]; exact lt_of_get hj
    obtain ⟨nd2, e1, e2, e3, _⟩ := hget j _ (List.getElem?_eq_getElem hlt)
    rw [hj] at e1; cases e1
    exact ⟨_, List.getElem?_eq_getElem hlt, e2, e3⟩
  refine ⟨?_, ?_⟩
  · intro j nd' hj
    obtain ⟨nd, e1, e2, e3, e4, e5⟩ := hget j nd' hj
    have o := h.nodes j nd e1
    refine ⟨by show nd'.setters.keys.Nodup; rw [e2]; exact o.keys, ?_, ?_, ?_, ?_, ?_⟩
    · intro p s hp d hd
      have hp : nd'.setters.get? p = some s := hp
      rw [hlen]; rw [e2] at hp; exact o.links p s hp d hd
    · intro p
      show p ∈ sub' j nd' ↔ ∃ s q, nd'.setters.get? p = some s ∧ s.src = .computeOut q
      rw [e4, e2]; exact o.outs p
    · show (sub' j nd').Nodup; rw [e4]; exact o.outsNodup
    · intro hf; show sub' j nd' = []; rw [e4]; exact o.plain (by rw [← e3]; exact hf)
    · intro a ha; show a ∉ sub' j nd'; rw [e4]; exact e5 a ha
  · intro j p s hs
    unfold sourceOf at hs
    split at hs
    · rename_i nd' hj
      obtain ⟨nd, e1, e2, e3, e4, e5⟩ := hget j nd' hj
      have l := h.links j p s (by rw [source_get e1, ← e2]; exact hs)
      refine ⟨?_, ?_⟩
      · intro d q e
        obtain ⟨dn, f1, f2⟩ := hasParam_iff.1 (l.1 d q e)
        obtain ⟨dn', g1, g2, _⟩ := hget' d dn f1
        exact hasParam_iff.2 ⟨dn', g1, by rw [g2]; exact f2⟩
      · intro d q e
        obtain ⟨dn, f1, f2⟩ := l.2 d q e
        obtain ⟨dn', g1, _, g3⟩ := hget' d dn f1
        exact ⟨dn', g1, by rw [g3]; exact f2⟩
    · cases hs

/-- Wrapping a callable keeps the invariant. -/
def MkInv (mk : Mk α σ) : Prop :=
  ∀ (H : Heap α σ) f b H' n, mk H f b = .ok (H', n) → BInv plainSub H →
    BInv plainSub H' ∧ ∃ nn, H'[n]? = some nn ∧ nn.isFunc = true

theorem Den.inv {mk : Mk α σ} (hmk : MkInv mk) {H H1 : Heap α σ} {id : NodeId} {name : Name}
    {v : PyVal α σ} {st : Setter α} (h : Den mk H id name v H1 st) (hi : BInv plainSub H) :
    BInv plainSub H1 ∧ (∀ q, st.src ≠ .computeOut q) ∧ st.src ≠ .undefined ∧
    (∀ d q, st.src = .modelParam d q → HasParam H1 d q) ∧
    (∀ d q, st.src = .funcNode d q → ∃ dn, H1[d]? = some dn ∧ dn.isFunc = true) := by
  cases h with
  | const => exact ⟨hi, by simp, by simp, by simp, by simp⟩
  | getter h1 h2 =>
    refine ⟨hi, by simp, by simp, ?_, by simp⟩
    intro d q e; cases e; exact hasParam_iff.2 ⟨_, h1, h2⟩
  | func h1 =>
    obtain ⟨g1, nn, g2, g3⟩ := hmk _ _ _ _ _ h1 hi
    refine ⟨g1, by simp, by simp, by simp, ?_⟩
    intro d q e; cases e; exact ⟨nn, g2, g3⟩
  | fnode h1 h2 =>
    refine ⟨hi, by simp, by simp, by simp, ?_⟩
    intro d q e; cases e; exact ⟨_, h1, h2⟩
  | node h1 h2 h3 h4 =>
    refine ⟨hi, by simp, by simp, ?_, by simp⟩
    intro d q e; cases e; exact hasParam_iff.2 ⟨_, h1, h4⟩

theorem clearPos_inv {H : Heap α σ} (hi : BInv plainSub H) (id : NodeId) : BInv plainSub (H.clearPos id) := by
  apply hi.cosmetic (modify_length _ _ _)
  intro j nd' hj
  unfold Heap.clearPos at hj
  rw [modify_get] at hj
  split at hj
  · cases h : H[j]? with
    | none => rw [h] at hj; cases hj
    | some nd =>
      rw [h] at hj; cases hj
      exact ⟨nd, rfl, rfl, rfl, rfl, (hi.nodes j nd h).args⟩
  · exact ⟨nd', hj, rfl, rfl, rfl, (hi.nodes j nd' hj).args⟩

theorem putSource_inv {H : Heap α σ} (hi : BInv plainSub H) {id : NodeId} {nd : PNode α σ}
    (hid : H[id]? = some nd) {name : Name} {st : Setter α} (hn : name ∉ nd.outputs)
    (hnc : ∀ q, st.src ≠ .computeOut q)
    (hl1 : ∀ d q, st.src = .modelParam d q → HasParam H d q)
    (hl2 : ∀ d q, st.src = .funcNode d q → ∃ dn, H[d]? = some dn ∧ dn.isFunc = true) :
    BInv plainSub (H.putSource id name st) := by
  refine hi.put (nd' := { nd with setters := nd.setters.set name st }) hid ?_ (modify_length _ _ _) ?_ rfl rfl rfl rfl hn hnc hl1 hl2
  · unfold Heap.putSource; rw [modify_get, if_pos rfl, hid]; rfl
  · intro j hj; unfold Heap.putSource; rw [modify_get, if_neg (fun e => hj e.symm)]

theorem setWith_inv {mk : Mk α σ} (hs : MkSame mk) (hmk : MkInv mk) {H : Heap α σ}
    (hi : BInv plainSub H) {id : NodeId} {nd : PNode α σ} (hid : H[id]? = some nd) (name : Name)
    (hn : name ∉ nd.outputs) (v : PyVal α σ) : BInv plainSub (H.setWith mk id name v).1 := by
  have hc := clearPos_inv hi id
  rcases setWith_spec hs hid name v with ⟨_, h⟩ | ⟨_, e, h⟩ | ⟨_, H1, st, H', hd, he, hH', _, _⟩
  · rw [h]; exact hc
  · rw [h]; exact hc
  · rw [he]
    obtain ⟨g1, g2, _, g3, g4⟩ := hd.inv hmk hc
    have hcid : (H.clearPos id)[id]? = some { nd with pos := none } := by
      unfold Heap.clearPos; rw [modify_get, if_pos rfl, hid]; rfl
    have h1 : H1[id]? = some { nd with pos := none } := by
      rw [(hd.same hs).2 id (lt_of_get hcid)]; exact hcid
    rw [hH']
    exact putSource_inv g1 h1 hn g2 g3 g4

theorem addWith_inv {mk : Mk α σ} (hs : MkSame mk) (hmk : MkInv mk) {H : Heap α σ}
    (hi : BInv plainSub H) {id : NodeId} {nd : PNode α σ} (hid : H[id]? = some nd) (name : Name)
    (v : PyVal α σ) (g : Option Bool) : BInv plainSub (H.addWith mk id name v g).1 := by
  rcases addWith_spec hs hid name v g with ⟨_, h⟩ | ⟨_, hk, e, h⟩ | ⟨_, hk, H1, st, H', hd, he, _, hext, hlen, hget⟩
  · rw [h]; exact hi
  all_goals
    have hno : name ∉ nd.outputs := by
      intro hm
      obtain ⟨s, q, e1, _⟩ := ((hi.nodes id nd hid).outs name).1 hm
      exact hk (by rw [← Dict.has_iff]; unfold Dict.has; rw [show nd.setters.get? name = some s from e1]; rfl)
    have hp := putSource_inv hi hid hno (st := ⟨.undefined, false⟩) (by simp) (by simp) (by simp)
    have hc := clearPos_inv hp id
  · rw [h]; exact hc
  · rw [he]
    obtain ⟨g1, g2, _, g3, g4⟩ := hd.inv hmk hc
    have hcid : ((H.putSource id name ⟨.undefined, false⟩).clearPos id)[id]? =
        some { nd with pos := none, setters := nd.setters.set name ⟨.undefined, false⟩ } := by
      unfold Heap.clearPos Heap.putSource; rw [modify_get, if_pos rfl, modify_get, if_pos rfl, hid]; rfl
    have h1 := (hd.same hs).2 id (lt_of_get hcid)
    rw [hcid] at h1
    have hsrc : (withGradient st g).src = st.src := by cases g <;> rfl
    refine g1.put (st := withGradient st g) h1 hget hlen ?_ (by simp only [set_set]) rfl rfl rfl hno
      (by rw [hsrc]; exact g2) (by rw [hsrc]; exact g3) (by rw [hsrc]; exact g4)
    intro j hj
    by_cases hjl : j < H1.length
    · exact hext.same j hjl hj
    · have hjl' := Nat.le_of_not_lt hjl
      show H'[j]? = H1[j]?
      rw [List.getElem?_eq_none hjl', List.getElem?_eq_none (by rw [hlen]; exact hjl')]

end LCL.ApiLemmas
