import Verif.Lemmas.NodeApi

/-!
# Lemmas about constructing function nodes
-/

namespace LCL.ApiLemmas
open LCL LCL.NodeSpec LCL.ApiSpec
variable {α σ : Type}

/-- The parts of a node that adding parameters does not change. -/
structure SameCore (a b : PNode α σ) : Prop where
  isFunc : b.isFunc = a.isFunc
  funcName : b.funcName = a.funcName
  body : b.body = a.body
  cls : b.cls = a.cls
  label : b.label = a.label
  outputs : b.outputs = a.outputs

theorem SameCore.trans {a b c : PNode α σ} (h1 : SameCore a b) (h2 : SameCore b c) : SameCore a c :=
  ⟨h2.isFunc.trans h1.isFunc, h2.funcName.trans h1.funcName, h2.body.trans h1.body,
    h2.cls.trans h1.cls, h2.label.trans h1.label, h2.outputs.trans h1.outputs⟩

theorem addArgs_spec {mk : Mk α σ} (hs : MkSame mk) (hmk : MkInv mk) (id : NodeId) :
    ∀ (args : List (Name × PyVal α σ)) (H : Heap α σ) (nd : PNode α σ) (H' : Heap α σ),
      H[id]? = some nd → H.addArgs mk id args = (H', none) →
      Ext id H H' ∧ ∃ nd', H'[id]? = some nd' ∧ SameCore nd nd' ∧
        nd'.argNames = nd.argNames ++ args.map (·.1) ∧
        (∀ k ∈ args.map (·.1), k ∈ nd'.setters.keys) ∧
        (∀ k ∈ nd.setters.keys, k ∈ nd'.setters.keys) ∧
        (BInv plainSub H → nd.outputs = [] → BInv plainSub H') := by
  intro args
  induction args with
  | nil =>
    intro H nd H' hid h
    cases h
    exact ⟨Ext.refl _ _, nd, hid, ⟨rfl, rfl, rfl, rfl, rfl, rfl⟩, by simp, by simp, fun _ h => h,
      fun h _ => h⟩
  | cons a args ih =>
    obtain ⟨k, v⟩ := a
    intro H nd H' hid h
    unfold Heap.addArgs at h
    let H0 : Heap α σ := H.modifyNode id fun n => { n with argNames := n.argNames ++ [k] }
    have h0 : H0[id]? = some { nd with argNames := nd.argNames ++ [k] } := by
      show (H.modifyNode id _)[id]? = _
      rw [modify_get, if_pos rfl, hid]; rfl
    have e0 : Ext id H H0 := modify_ext _ _ _
    have hinv := fun hi => addWith_inv hs hmk (H := H0) hi h0 k v none
    rcases addWith_spec hs h0 k v none with ⟨_, he⟩ | ⟨_, _, e, he⟩ | ⟨_, hk, H1, st, H2, hd, he, hext, _, _, hget⟩
    · rw [show Heap.addWith mk _ id k v none = (H0, some .keyError) from he] at h; simp at h
    · rw [show Heap.addWith mk _ id k v none = (_, some e) from he] at h; simp at h
    · rw [show Heap.addWith mk _ id k v none = (H2, none) from he] at h
      simp only at h
      rw [he] at hinv
      obtain ⟨g1, nd', g2, g3, g4, g5, g6, g7⟩ := ih H2 _ H' hget h
      refine ⟨(e0.trans hext).trans g1, nd', g2, ?_, ?_, ?_, ?_, ?_⟩
      · exact ⟨g3.isFunc, g3.funcName, g3.body, g3.cls, g3.label, g3.outputs⟩
      · rw [g4]; simp
      · intro x hx
        simp only [List.map_cons, List.mem_cons] at hx
        rcases hx with rfl | hx
        · apply g6
          simp only [Dict.mem_keys_set]; exact Or.inl trivial
        · exact g5 x hx
      · intro x hx
        apply g6
        simp only [Dict.mem_keys_set]; exact Or.inr hx
      · intro hi ho
        apply g7 (hinv ?_) ho
        apply hi.cosmetic (modify_length _ _ _)
        intro j nd2 hj
        have hj : (H.modifyNode id fun n => { n with argNames := n.argNames ++ [k] })[j]? = some nd2 := hj
        rw [modify_get] at hj
        split at hj
        · rename_i hij
          subst hij
          rw [hid] at hj; cases hj
          exact ⟨nd, hid, rfl, rfl, rfl, by intro a _; simp [plainSub, ho]⟩
        · exact ⟨nd2, hj, rfl, rfl, rfl, (hi.nodes j nd2 hj).args⟩

theorem mkErr_same : MkSame (fun _ _ _ => .error .typeError : Mk α σ) := by
  intro H f b H' n h; cases h
theorem mkErr_inv : MkInv (fun _ _ _ => .error .typeError : Mk α σ) := by
  intro H f b H' n h; cases h

/-- Registering one output: the source becomes "computed by this node". -/
theorem BInv.output {H H' : Heap α σ} {id : NodeId} {done : List Name} (h : BInv (subAt id done) H)
    {nd nd' : PNode α σ} {o : Name}
    (hid : H[id]? = some nd) (hid' : H'[id]? = some nd') (hlen : H'.length = H.length)
    (hoth : ∀ j : NodeId, j ≠ id → H'[j]? = H[j]?)
    (hset : nd'.setters = nd.setters.set o ⟨.computeOut o, false⟩) (hargs : nd'.argNames = nd.argNames)
    (hfun : nd'.isFunc = nd.isFunc) (hf : nd.isFunc = true) (hnew : o ∉ nd.setters.keys)
    (hak : ∀ a ∈ nd.argNames, a ∈ nd.setters.keys) :
    BInv (subAt id (done ++ [o])) H' := by
  have hget? : ∀ p, p ∈ nd.setters.keys → o ≠ p := fun p hp e => hnew (e ▸ hp)
  refine ⟨?_, ?_⟩
  · intro j n hj
    by_cases hji : j = id
    · subst hji
      rw [hid'] at hj; cases hj
      have ob := h.nodes j nd hid
      simp only [subAt, if_true] at ob ⊢
      refine ⟨?_, ?_, ?_, ?_, ?_, ?_⟩
      · show nd'.setters.keys.Nodup
        rw [hset]; exact Dict.nodup_set ob.keys _ _
      · intro p s hp d hd
        have hp : nd'.setters.get? p = some s := hp
        rw [hset, Dict.get?_set] at hp
        split at hp
        · cases hp; cases hd
        · rw [hlen]; exact ob.links p s hp d hd
      · intro p
        show p ∈ done ++ [o] ↔ ∃ s q, nd'.setters.get? p = some s ∧ s.src = .computeOut q
        rw [hset, List.mem_append, List.mem_singleton]
        by_cases hp : o = p
        · subst hp
          simp
        · have : ¬ p = o := fun e => hp e.symm
          simp only [Dict.get?_set_ne _ _ hp, this, or_false]
          exact ob.outs p
      · show (done ++ [o]).Nodup
        rw [List.nodup_append]
        refine ⟨ob.outsNodup, by simp, ?_⟩
        intro a ha b hb
        simp at hb; subst hb
        obtain ⟨s, q, e1, _⟩ := (ob.outs a).1 ha
        have e1 : nd.setters.get? a = some s := e1
        intro e; subst e
        exact hnew (by rw [← Dict.has_iff]; unfold Dict.has; rw [e1]; rfl)
      · intro hff
        have hff : nd'.isFunc = false := hff
        rw [hfun, hf] at hff; cases hff
      · intro a ha
        have ha : a ∈ nd'.argNames := ha
        rw [hargs] at ha
        show a ∉ done ++ [o]
        rw [List.mem_append, List.mem_singleton]
        rintro (e | e)
        · exact ob.args a ha e
        · exact hget? a (hak a ha) e.symm
    · rw [hoth j hji] at hj
      rw [hlen]
      have := h.nodes j n hj
      simpa only [subAt, if_neg hji] using this
  · intro j p s hs
    have key : (∀ d q, s.src = .modelParam d q → HasParam H d q) ∧
        (∀ d q, s.src = .funcNode d q → ∃ dn, H[d]? = some dn ∧ dn.isFunc = true) := by
      by_cases hji : j = id
      · subst hji
        rw [source_get hid', hset, Dict.get?_set] at hs
        split at hs
        · cases hs; exact ⟨by simp, by simp⟩
        · exact h.links j p s (by rw [source_get hid]; exact hs)
      · exact h.links j p s (by unfold sourceOf at hs ⊢; rw [hoth j hji] at hs; exact hs)
    refine ⟨?_, ?_⟩
    · intro d q e
      obtain ⟨dn, f1, f2⟩ := hasParam_iff.1 (key.1 d q e)
      by_cases hd : d = id
      · subst hd
        rw [hid] at f1; cases f1
        exact hasParam_iff.2 ⟨nd', hid', by rw [hset, Dict.mem_keys_set]; exact Or.inr f2⟩
      · exact hasParam_iff.2 ⟨dn, by rw [hoth d hd]; exact f1, f2⟩
    · intro d q e
      obtain ⟨dn, f1, f2⟩ := key.2 d q e
      by_cases hd : d = id
      · subst hd
        rw [hid] at f1; cases f1
        exact ⟨nd', hid', by rw [hfun]; exact f2⟩
      · exact ⟨dn, by rw [hoth d hd]; exact f1, f2⟩

theorem addOutputs_spec (id : NodeId) :
    ∀ (outs : List Name) (H : Heap α σ) (nd : PNode α σ) (H' : Heap α σ),
      H[id]? = some nd → H.addOutputs id outs = (H', none) →
      Ext id H H' ∧ H'.length = H.length ∧ ∃ nd', H'[id]? = some nd' ∧ SameCore nd nd' ∧
        nd'.argNames = nd.argNames ∧
        (∀ k ∈ nd.setters.keys, k ∈ nd'.setters.keys) ∧
        ∀ done, BInv (subAt id done) H → nd.isFunc = true → (∀ a ∈ nd.argNames, a ∈ nd.setters.keys) →
          BInv (subAt id (done ++ outs)) H' := by
  intro outs
  induction outs with
  | nil =>
    intro H nd H' hid h
    cases h
    exact ⟨Ext.refl _ _, rfl, nd, hid, ⟨rfl, rfl, rfl, rfl, rfl, rfl⟩, rfl, fun _ h => h,
      fun done h _ _ => by simpa using h⟩
  | cons o outs ih =>
    intro H nd H' hid h
    unfold Heap.addOutputs at h
    rcases addWith_spec mkErr_same hid o (.const .none) none with ⟨_, he⟩ | ⟨_, _, e, he⟩ | ⟨_, hk, H1, st, H2, hd, he, hext, hext1, hlen1, hget⟩
    · rw [he] at h; cases h
    · rw [he] at h; cases h
    · rw [he] at h
      simp only at h
      have hlen2 : H2.length = H.length := by
        rw [hlen1]
        cases hd
        rw [Heap.clearPos, modify_length, Heap.putSource, modify_length]
      have h3 : (H2.putSource id o ⟨.computeOut o, false⟩)[id]? = some { nd with
          pos := none
          setters := nd.setters.set o ⟨.computeOut o, false⟩
          attrs := nd.attrs ++ [o] } := by
        unfold Heap.putSource; rw [modify_get, if_pos rfl, hget]; simp [set_set]
      obtain ⟨g1, g2, nd', g3, g4, g5, g6, g7⟩ := ih _ _ H' h3 h
      have hl3 : (H2.putSource id o ⟨.computeOut o, false⟩).length = H2.length := modify_length _ _ _
      refine ⟨(hext.trans (modify_ext _ _ _)).trans g1, by rw [g2, hl3, hlen2], nd', g3, ?_, g5, ?_, ?_⟩
      · exact ⟨g4.isFunc, g4.funcName, g4.body, g4.cls, g4.label, g4.outputs⟩
      · intro x hx; apply g6; simp only [Dict.mem_keys_set]; exact Or.inr hx
      · intro done hb hf hak
        have := g7 (done ++ [o]) ?_ hf ?_
        · simpa using this
        · refine hb.output hid h3 (by rw [hl3, hlen2]) ?_ rfl rfl rfl hf hk hak
          intro j hj
          have hp : (H2.putSource id o ⟨.computeOut o, false⟩)[j]? = H2[j]? := by
            unfold Heap.putSource; rw [modify_get, if_neg (fun e => hj e.symm)]
          rw [hp]
          by_cases hjl : j < H.length
          · exact hext.same j hjl hj
          · have hjl' := Nat.le_of_not_lt hjl
            rw [List.getElem?_eq_none hjl', List.getElem?_eq_none (by rw [hlen2]; exact hjl')]
        · intro a ha
          simp only [Dict.mem_keys_set]; exact Or.inr (hak a ha)

theorem append_inv {H : Heap α σ} (hi : BInv plainSub H) (n : PNode α σ) (h1 : n.setters = [])
    (h2 : n.outputs = []) : BInv plainSub (H ++ [n]) := by
  have hget : ∀ (j : NodeId) (nd : PNode α σ), H[j]? = some nd → (H ++ [n])[j]? = some nd := by
    intro j nd hj
    rw [List.getElem?_append_left (lt_of_get hj)]; exact hj
  refine ⟨?_, ?_⟩
  · intro j nd hj
    by_cases hjl : j < H.length
    · rw [List.getElem?_append_left hjl] at hj
      exact (hi.nodes j nd hj).mono (by simp)
    · have hj1 : j = H.length := by
        have := lt_of_get hj
        simp only [List.length_append, List.length_singleton] at this
        exact Nat.le_antisymm (Nat.le_of_lt_succ this) (Nat.le_of_not_lt hjl)
      subst hj1
      simp at hj; subst hj
      refine ⟨by simp [h1], ?_, ?_, by simp [plainSub, h2], by simp [plainSub, h2], by simp [plainSub, h2]⟩
      · intro p st hp; simp [h1] at hp
      · intro p; simp [plainSub, h2, h1]
  · intro j p st hs
    unfold sourceOf at hs
    split at hs
    · rename_i nd hj
      by_cases hjl : j < H.length
      · rw [List.getElem?_append_left hjl] at hj
        have l := hi.links j p st (by rw [source_get hj]; exact hs)
        refine ⟨?_, ?_⟩
        · intro d q e
          obtain ⟨dn, f1, f2⟩ := hasParam_iff.1 (l.1 d q e)
          exact hasParam_iff.2 ⟨dn, hget _ _ f1, f2⟩
        · intro d q e
          obtain ⟨dn, f1, f2⟩ := l.2 d q e
          exact ⟨dn, hget _ _ f1, f2⟩
      · have hj1 : j = H.length := by
          have := lt_of_get hj
          simp only [List.length_append, List.length_singleton] at this
          exact Nat.le_antisymm (Nat.le_of_lt_succ this) (Nat.le_of_not_lt hjl)
        subst hj1
        simp at hj; subst hj
        rw [h1] at hs; cases hs
    · cases hs

theorem newFunction_spec {mk : Mk α σ} (hs : MkSame mk) (hmk : MkInv mk) {H H' : Heap α σ}
    {cls : Name} {label funcName : Option Name} {body : Option (Body α σ)} {attrs outputs : List Name}
    {args : List (Name × PyVal α σ)} {n : NodeId}
    (h : Heap.newFunctionWith mk H cls label funcName body attrs outputs args = .ok (H', n)) :
    n = H.length ∧ H.length < H'.length ∧ (∀ j : NodeId, j < H.length → H'[j]? = H[j]?) ∧
    (∃ nn, H'[n]? = some nn ∧ nn.isFunc = true ∧ nn.funcName = funcName ∧ nn.body = body ∧
      nn.cls = cls ∧ nn.label = label ∧
      nn.outputs = Heap.outputNames outputs ∧ nn.argNames = args.map (·.1) ∧
      ∀ k ∈ args.map (·.1), k ∈ nn.setters.keys) ∧
    (BInv plainSub H → BInv plainSub H') := by
  unfold Heap.newFunctionWith at h
  simp only at h
  split at h
  · cases h
  · rename_i H1 he1
    split at h
    · cases h
    · rename_i H2 he2
      cases h
      let fr : PNode α σ := Heap.freshNode cls label true funcName body attrs
      have hfr : (H ++ [fr])[H.length]? = some fr := by simp
      obtain ⟨a1, nd1, a2, a3, a4, a5, a6, a7⟩ := addArgs_spec hs hmk H.length args (H ++ [fr]) fr H1 hfr he1
      have hm : (H1.modifyNode H.length fun n => { n with outputs := Heap.outputNames outputs })[H.length]?
          = some { nd1 with outputs := Heap.outputNames outputs } := by
        rw [modify_get, if_pos rfl, a2]; rfl
      obtain ⟨b1, b2, nd2, b3, b4, b5, b6, b7⟩ := addOutputs_spec H.length (Heap.outputNames outputs) _ _ H' hm he2
      have hml : (H1.modifyNode H.length fun n => { n with outputs := Heap.outputNames outputs }).length
          = H1.length := modify_length _ _ _
      have hlen1 := a1.len
      simp only [List.length_append, List.length_singleton] at hlen1
      refine ⟨rfl, by omega, ?_, ?_, ?_⟩
      · intro j hj
        have hne : j ≠ H.length := Nat.ne_of_lt hj
        have hj1 : j < H1.length := Nat.lt_of_lt_of_le hj (by omega)
        rw [b1.same j (by rw [hml]; exact hj1) hne, modify_get, if_neg (fun e => hne e.symm),
          a1.same j (by simp; exact Nat.lt_succ_of_lt hj) hne, List.getElem?_append_left hj]
      · refine ⟨nd2, b3, ?_, ?_, ?_, ?_, ?_, ?_, ?_, ?_⟩
        · rw [b4.isFunc]; exact a3.isFunc
        · rw [b4.funcName]; exact a3.funcName
        · rw [b4.body]; exact a3.body
        · rw [b4.cls]; exact a3.cls
        · rw [b4.label]; exact a3.label
        · rw [b4.outputs]
        · rw [b5]; simp only [a4]; rfl
        · intro k hk; exact b6 k (a5 k hk)
      · intro hi
        have i1 : BInv plainSub (H ++ [fr]) := append_inv hi fr rfl rfl
        have i2 := a7 i1 rfl
        have i3 : BInv (subAt H.length []) (H1.modifyNode H.length fun n =>
            { n with outputs := Heap.outputNames outputs }) := by
          apply i2.cosmetic hml
          intro j nd' hj
          rw [modify_get] at hj
          split at hj
          · rename_i e; subst e
            rw [a2] at hj; cases hj
            refine ⟨nd1, a2, rfl, rfl, ?_, (i2.nodes _ _ a2).args⟩
            simp only [subAt, plainSub, if_true, a3.outputs]; rfl
          · rename_i e
            exact ⟨nd', hj, rfl, rfl, by
              have e' : ¬ j = H.length := fun e' => e e'.symm
              simp only [subAt, plainSub, if_neg e'],
              (i2.nodes _ _ hj).args⟩
        have i4 := b7 [] i3 (by rw [show ({ nd1 with outputs := Heap.outputNames outputs } : PNode α σ).isFunc = nd1.isFunc from rfl, a3.isFunc]; rfl) (by
          intro a ha
          have ha : a ∈ nd1.argNames := ha
          rw [a4] at ha
          simp only [fr, Heap.freshNode, PNode.updateString, List.nil_append] at ha
          exact a5 a ha)
        have hout : nd2.outputs = Heap.outputNames outputs := by rw [b4.outputs]
        refine ⟨?_, i4.links⟩
        intro j n hj
        have := i4.nodes j n hj
        by_cases hjn : j = H.length
        · subst hjn
          rw [b3] at hj; cases hj
          simp only [subAt, if_true, List.nil_append] at this
          simp only [plainSub, hout]; exact this
        · simp only [subAt, if_neg hjn] at this; exact this

theorem wrap0_same : MkSame (Heap.wrap0 : Mk α σ) := by
  intro H f b H' n h
  obtain ⟨h1, h2, h3, _⟩ := newFunction_spec mkErr_same mkErr_inv h
  subst h1
  exact ⟨Nat.le_refl _, h2, Nat.le_of_lt h2, h3⟩
theorem wrap0_inv : MkInv (Heap.wrap0 : Mk α σ) := by
  intro H f b H' n h hi
  obtain ⟨_, _, _, ⟨nn, e1, e2, _⟩, h5⟩ := newFunction_spec mkErr_same mkErr_inv h
  exact ⟨h5 hi, nn, e1, e2⟩
theorem wrap_same (k : List (Name × PyVal α σ)) : MkSame (Heap.wrap k) := by
  intro H f b H' n h
  obtain ⟨h1, h2, h3, _⟩ := newFunction_spec wrap0_same wrap0_inv h
  subst h1
  exact ⟨Nat.le_refl _, h2, Nat.le_of_lt h2, h3⟩
theorem wrap_inv (k : List (Name × PyVal α σ)) : MkInv (Heap.wrap k) := by
  intro H f b H' n h hi
  obtain ⟨_, _, _, ⟨nn, e1, e2, _⟩, h5⟩ := newFunction_spec wrap0_same wrap0_inv h
  exact ⟨h5 hi, nn, e1, e2⟩

end LCL.ApiLemmas
