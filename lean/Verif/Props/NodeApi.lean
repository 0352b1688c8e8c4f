import Verif.Lemmas.NodeApi2
import Verif.Props.Nodes2

/-!
# Property C59: building parameter graphs
-/

namespace LCL.ApiProps
open LCL LCL.NodeSpec LCL.ApiSpec LCL.ApiLemmas
variable {α σ : Type}

theorem chosen_pick (name : Name) (kwargs : List (Name × PyVal α σ)) (v : PyVal α σ) :
    Chosen name kwargs v (Heap.pickValue name v kwargs) := by
  unfold Heap.pickValue
  split
  · cases h : Dict.get? kwargs name with
    | none => exact .absent h
    | some w => exact .keyword h
  · rename_i h; exact .explicit (fun e => h e)

theorem chosen_unique {name : Name} {kwargs : List (Name × PyVal α σ)} {v a : PyVal α σ}
    (ha : Chosen name kwargs v a) : a = Heap.pickValue name v kwargs := by
  cases ha with
  | explicit h =>
    unfold Heap.pickValue
    split
    · exact absurd rfl h
    · rfl
  | keyword h => simp [Heap.pickValue, h]
  | absent h => simp [Heap.pickValue, h]

/-- The parts of a heap `Means` looks at. -/
structure Alike (H K : Heap α σ) : Prop where
  node : ∀ (j : NodeId) nd, K[j]? = some nd → ∃ nd', H[j]? = some nd' ∧ nd'.isFunc = nd.isFunc ∧
    nd'.outputs = nd.outputs
  len : K.length = H.length

theorem means_of_den {kwargs : List (Name × PyVal α σ)} {H K K1 H' : Heap α σ} {id : NodeId}
    {name : Name} {v : PyVal α σ} {st : Setter α} (hA : Alike H K)
    (hd : Den (Heap.wrap kwargs) K id name v K1 st)
    (hpar : ∀ d q, HasParam K d q → v = .method d q ∨ (v = .node d ∧ d ≠ id) → HasParam H d q)
    (hext : ∀ (j : NodeId) nd, j ≠ id → K1[j]? = some nd → H'[j]? = some nd) (hid : id < H.length) :
    Means H H' id name kwargs v st := by
  cases hd with
  | const => exact .const
  | getter h1 h2 => exact .getter (hpar _ _ (hasParam_iff.2 ⟨_, h1, h2⟩) (Or.inl rfl))
  | func h1 =>
    obtain ⟨e1, e2, e3, ⟨nn, f1, f2, f3, f4, _, _, f5, f6, _⟩, _⟩ := newFunction_spec wrap0_same wrap0_inv h1
    refine .callable (nn := nn) (by rw [e1, hA.len]; exact Nat.le_refl _) (hext _ _ ?_ f1) f2 f3 f4 f5 f6
    rw [e1, hA.len]; exact fun e => absurd (e ▸ hid) (Nat.lt_irrefl _)
  | fnode h1 h2 =>
    rename_i v vn
    obtain ⟨vn', g1, g2, g3⟩ := hA.node _ _ h1
    rw [h2] at g2
    by_cases ho : name ∈ vn.outputs
    · rw [if_pos ho]; exact .output g1 g2 (by rw [g3]; exact ho)
    · rw [if_neg ho]; exact .result g1 g2 (by rw [g3]; exact ho)
  | node h1 h2 h3 h4 =>
    obtain ⟨vn', g1, g2, g3⟩ := hA.node _ _ h1
    rw [h2] at g2
    exact .sameName g1 g2 h3 (hpar _ _ (hasParam_iff.2 ⟨_, h1, h4⟩) (Or.inr ⟨rfl, h3⟩))

theorem clearPos_alike (H : Heap α σ) (id : NodeId) : Alike H (H.clearPos id) := by
  refine ⟨?_, modify_length _ _ _⟩
  intro j nd hj
  unfold Heap.clearPos at hj
  rw [modify_get] at hj
  split at hj
  · cases h : H[j]? with
    | none => rw [h] at hj; cases hj
    | some n => rw [h] at hj; cases hj; exact ⟨n, rfl, rfl, rfl⟩
  · exact ⟨nd, hj, rfl, rfl⟩

theorem putSource_alike (H : Heap α σ) (id : NodeId) (n : Name) (st : Setter α) :
    Alike H (H.putSource id n st) := by
  refine ⟨?_, modify_length _ _ _⟩
  intro j nd hj
  unfold Heap.putSource at hj
  rw [modify_get] at hj
  split at hj
  · cases h : H[j]? with
    | none => rw [h] at hj; cases hj
    | some n => rw [h] at hj; cases hj; exact ⟨n, rfl, rfl, rfl⟩
  · exact ⟨nd, hj, rfl, rfl⟩

theorem Alike.trans {A B C : Heap α σ} (h1 : Alike A B) (h2 : Alike B C) : Alike A C := by
  refine ⟨?_, h2.len.trans h1.len⟩
  intro j nd hj
  obtain ⟨n1, e1, e2, e3⟩ := h2.node j nd hj
  obtain ⟨n2, f1, f2, f3⟩ := h1.node j n1 e1
  exact ⟨n2, f1, f2.trans e2, f3.trans e3⟩

theorem source_clearPos (H : Heap α σ) (id j : NodeId) (p : Name) :
    sourceOf (H.clearPos id) j p = sourceOf H j p := by
  unfold sourceOf Heap.clearPos
  rw [modify_get]
  by_cases h : id = j
  · subst h; cases H[id]? <;> simp
  · rw [if_neg h]

theorem source_putSource (H : Heap α σ) {id : NodeId} {nd : PNode α σ} (hid : H[id]? = some nd)
    (n : Name) (st : Setter α) (j : NodeId) (p : Name) :
    sourceOf (H.putSource id n st) j p = if j = id ∧ p = n then some st else sourceOf H j p := by
  unfold sourceOf Heap.putSource
  rw [modify_get]
  by_cases h : id = j
  · subst h
    rw [hid]
    simp only [Option.map_some, if_true, Dict.get?_set, true_and]
    by_cases h2 : n = p
    · subst h2; simp
    · rw [if_neg h2, if_neg (fun e => h2 e.symm)]
  · rw [if_neg h, if_neg (by rintro ⟨e, _⟩; exact h e.symm)]

/-- C59 (set_parameter). An unknown parameter raises `KeyError`. Otherwise the call either raises
and no source of any node changes (and a non-callable value that raised denotes no source at all),
or it returns and the parameter's source is what the chosen value denotes, every other source of
every existing node staying as it was. -/
theorem C59_set_parameter (H : Heap α σ) (id : NodeId) (hlt : id < H.length) (name : Name)
    (value : PyVal α σ) (kwargs : List (Name × PyVal α σ)) (H' : Heap α σ) (r : Option Err)
    (hcall : H.setParameter id name value kwargs = (H', r)) :
    (¬ HasParam H id name → r = some .keyError) ∧
    (∀ e, r = some e → (∀ j p, sourceOf H' j p = sourceOf H j p) ∧
      (HasParam H id name → ∀ v, Chosen name kwargs value v → (∀ f b, v ≠ .func f b) →
        ∀ st, ¬ Means H H' id name kwargs v st)) ∧
    (r = none → ∃ v st, Chosen name kwargs value v ∧ Means H H' id name kwargs v st ∧
      sourceOf H' id name = some st ∧
      ∀ j p, j < H.length → (j, p) ≠ (id, name) → sourceOf H' j p = sourceOf H j p) := by
  obtain ⟨nd, hid⟩ : ∃ nd, H[id]? = some nd := ⟨_, List.getElem?_eq_getElem hlt⟩
  have hp : HasParam H id name ↔ name ∈ nd.setters.keys := by
    rw [hasParam_iff]; simp [hid]
  have hcpos : (H.clearPos id)[id]? = some { nd with pos := none } := by
    unfold Heap.clearPos; rw [modify_get, if_pos rfl, hid]; rfl
  have hsrcpos : ∀ d q, HasParam (H.clearPos id) d q ↔ HasParam H d q := by
    intro d q; unfold HasParam; simp only [source_clearPos]
  unfold Heap.setParameter at hcall
  rcases setWith_spec (wrap_same kwargs) hid name (Heap.pickValue name value kwargs) with
    ⟨hk, h⟩ | ⟨hk, e, h⟩ | ⟨hk, H1, st, K, hd, he, hK, hext, hget⟩
  · rw [h] at hcall; cases hcall
    refine ⟨fun _ => rfl, ?_, fun h => by cases h⟩
    intro e he
    exact ⟨fun j p => source_clearPos H id j p, fun hh => absurd (hp.1 hh) hk⟩
  · rw [h] at hcall; cases hcall
    refine ⟨fun hh => absurd (hp.2 hk) hh, ?_, fun h => by cases h⟩
    intro e' he
    refine ⟨fun j p => source_clearPos H id j p, ?_⟩
    intro _ v hv hnf st hm
    rw [chosen_unique hv] at hm hnf
    -- a value with a meaning does not raise
    unfold Heap.setWith at h
    simp only [hcpos] at h
    rw [if_pos ((Dict.has_iff _ _).2 hk)] at h
    have hfind : ∀ (j : NodeId) vn, H[j]? = some vn → ∃ vn', (H.clearPos id)[j]? = some vn' ∧
        vn'.isFunc = vn.isFunc ∧ vn'.setters = vn.setters := by
      intro j vn hj
      unfold Heap.clearPos
      rw [modify_get]
      by_cases hji : id = j
      · subst hji; rw [if_pos rfl, hj]; exact ⟨_, rfl, rfl, rfl⟩
      · rw [if_neg hji]; exact ⟨vn, hj, rfl, rfl⟩
    generalize Heap.pickValue name value kwargs = pv at hm hnf h
    cases hm with
    | const => simp [Heap.setSource] at h
    | getter g =>
      rw [hasParam_iff] at g
      obtain ⟨pn, g1, g2⟩ := g
      obtain ⟨pn', f1, _, f2⟩ := hfind _ _ g1
      have hs : pn'.setters.has _ = true := (Dict.has_iff _ _).2 (by rw [f2]; exact g2)
      simp [Heap.setSource, f1, hs] at h
    | output g1 g2 g3 =>
      obtain ⟨pn', f1, f2, _⟩ := hfind _ _ g1
      simp [Heap.setSource, f1, f2, g2] at h
    | result g1 g2 g3 =>
      obtain ⟨pn', f1, f2, _⟩ := hfind _ _ g1
      simp [Heap.setSource, f1, f2, g2] at h
    | sameName g1 g2 g3 g4 =>
      obtain ⟨pn', f1, f2, f3⟩ := hfind _ _ g1
      rw [hasParam_iff] at g4
      obtain ⟨pn, g4, g5⟩ := g4
      rw [g1] at g4; cases g4
      have hs : pn'.setters.has name = true := (Dict.has_iff _ _).2 (by rw [f3]; exact g5)
      simp [Heap.setSource, f1, f2, g2, g3, hs] at h
    | callable => exact hnf _ _ rfl
  · rw [he] at hcall; cases hcall
    refine ⟨fun hh => absurd (hp.2 hk) hh, fun e h => (by cases h), fun _ => ?_⟩
    refine ⟨_, st, chosen_pick name kwargs value, ?_, ?_, ?_⟩
    · refine means_of_den (clearPos_alike H id) hd ?_ ?_ hlt
      · intro d q h _; exact (hsrcpos d q).1 h
      · intro j nd' hj hg
        rw [hK]; unfold Heap.putSource
        rw [modify_get, if_neg (fun e => hj e.symm)]; exact hg
    · rw [source_get hget]; simp
    · intro j p hj hne
      by_cases hji : j = id
      · subst hji
        rw [source_get hget, source_get hid]
        exact Dict.get?_set_ne _ _ (fun e => hne (by rw [e]))
      · unfold sourceOf; rw [hext.same j hj hji]

/-- C59 (add_parameter). A name that is already a parameter or an attribute of the object raises
`KeyError` and nothing changes. Otherwise the call either returns, and the new parameter's source
is what the chosen value denotes, or raises, leaving the parameter without a usable source; no
other source of any existing node changes in either case. -/
theorem C59_add_parameter (H : Heap α σ) (id : NodeId) (nd : PNode α σ) (hid : H[id]? = some nd)
    (name : Name) (value : PyVal α σ) (gradient : Option Bool) (kwargs : List (Name × PyVal α σ))
    (hself : ∀ v, Chosen name kwargs value v → v ≠ .method id name)
    (H' : Heap α σ) (r : Option Err) (hcall : H.addParameter id name value gradient kwargs = (H', r)) :
    (HasParam H id name ∨ name ∈ nd.attrs → r = some .keyError ∧ H' = H) ∧
    (¬ HasParam H id name → name ∉ nd.attrs →
      (∀ j p, j < H.length → (j, p) ≠ (id, name) → sourceOf H' j p = sourceOf H j p) ∧
      (∀ e, r = some e → ∃ st, sourceOf H' id name = some st ∧ st.src = .undefined) ∧
      (r = none → ∃ v st, Chosen name kwargs value v ∧ Means H H' id name kwargs v st ∧
        ∃ st', sourceOf H' id name = some st' ∧ st'.src = st.src ∧
          st'.allowGradient = gradient.getD st.allowGradient)) := by
  have hlt := lt_of_get hid
  have hp : HasParam H id name ↔ name ∈ nd.setters.keys := by
    rw [hasParam_iff]; simp [hid]
  unfold Heap.addParameter at hcall
  rcases addWith_spec (wrap_same kwargs) hid name (Heap.pickValue name value kwargs) gradient with
    ⟨hk, h⟩ | ⟨ha, hk, e, h⟩ | ⟨ha, hk, H1, st, K, hd, he, hext, hext1, hlen1, hget⟩
  · rw [h] at hcall; cases hcall
    refine ⟨fun _ => ⟨rfl, rfl⟩, ?_⟩
    intro h1 h2
    rw [hp] at h1
    rcases hk with hk | hk
    · exact absurd hk h2
    · exact absurd hk h1
  · rw [h] at hcall; cases hcall
    refine ⟨fun hh => ?_, fun _ _ => ⟨?_, ?_, fun h => by cases h⟩⟩
    · rw [hp] at hh; rcases hh with hh | hh
      · exact absurd hh hk
      · exact absurd hh ha
    · intro j p _ hne
      rw [source_clearPos, source_putSource H hid, if_neg (by rintro ⟨rfl, rfl⟩; exact hne rfl)]
    · intro e' _
      exact ⟨_, by rw [source_clearPos, source_putSource H hid, if_pos ⟨rfl, rfl⟩], rfl⟩
  · rw [he] at hcall; cases hcall
    refine ⟨fun hh => ?_, fun _ _ => ⟨?_, fun e h => (by cases h), fun _ => ?_⟩⟩
    · rw [hp] at hh; rcases hh with hh | hh
      · exact absurd hh hk
      · exact absurd hh ha
    · intro j p hj hne
      by_cases hji : j = id
      · subst hji
        rw [source_get hget, source_get hid]
        exact Dict.get?_set_ne _ _ (fun e => hne (by rw [e]))
      · unfold sourceOf; rw [hext.same j hj hji]
    · refine ⟨_, st, chosen_pick name kwargs value, ?_, withGradient st gradient, ?_, ?_, ?_⟩
      · refine means_of_den ((putSource_alike H id name ⟨.undefined, false⟩).trans (clearPos_alike _ id)) hd ?_ ?_ hlt
        · intro d q hq hv
          unfold HasParam at hq ⊢
          rw [source_clearPos, source_putSource H hid] at hq
          by_cases hc : d = id ∧ q = name
          · obtain ⟨rfl, rfl⟩ := hc
            rcases hv with hv | ⟨_, hv⟩
            · exact absurd hv (hself _ (chosen_pick _ _ _))
            · exact absurd rfl hv
          · rw [if_neg hc] at hq; exact hq
        · intro j nd' hj hg
          rw [hext1.same j (lt_of_get hg) hj]; exact hg
      · rw [source_get hget]; simp
      · cases gradient <;> rfl
      · cases gradient <;> rfl

theorem assign_source (H : Heap α σ) (order : List NodeId) (id : NodeId) (p : Name) :
    sourceOf (Heap.assign H order) id p = sourceOf H id p := by
  unfold sourceOf
  rw [NodeProps.assign_get]
  cases H[id]? with
  | none => rfl
  | some nd => simp only [Option.map_some]; split <;> rfl

/-- C59 (frame). A call changes no source except possibly the one of the parameter it names. -/
theorem C59_frame (H : Heap α σ) (op : ApiOp α σ) (id : NodeId) (hlt : id < H.length) (p : Name)
    (ht : ¬ Targets id p op) :
    sourceOf (H.apply op).1 id p = sourceOf H id p ∧ H.length ≤ (H.apply op).1.length := by
  cases op with
  | newNode c l a =>
    simp only [Heap.apply, Heap.newNode, sourceOf]
    rw [List.getElem?_append_left hlt]
    exact ⟨rfl, by simp⟩
  | newFunction c l f b a o k =>
    simp only [Heap.apply, Heap.newFunction]
    split
    · exact ⟨rfl, Nat.le_refl _⟩
    · rename_i H' n h
      obtain ⟨_, h2, h3, _⟩ := newFunction_spec wrap0_same wrap0_inv h
      exact ⟨by unfold sourceOf; rw [h3 id hlt], Nat.le_of_lt h2⟩
  | addParameter i n v g k =>
    simp only [Heap.apply, Heap.addParameter]
    by_cases hi : i < H.length
    · have hid : H[i]? = some H[i] := List.getElem?_eq_getElem hi
      rcases addWith_spec (wrap_same k) hid n (Heap.pickValue n v k) g with
        ⟨hk, h⟩ | ⟨ha, hk, e, h⟩ | ⟨ha, hk, H1, st, K, hd, he, hext, hext1, hlen1, hget⟩
      · rw [h]; exact ⟨rfl, Nat.le_refl _⟩
      · rw [h]
        refine ⟨?_, ?_⟩
        · simp only [source_clearPos, source_putSource H hid]
          rw [if_neg (by rintro ⟨rfl, rfl⟩; exact ht ⟨rfl, rfl⟩)]
        · simp [Heap.clearPos, Heap.putSource, modify_length]
      · rw [he]
        refine ⟨?_, hext.len⟩
        by_cases hii : id = i
        · subst hii
          rw [source_get hget, source_get hid]
          exact Dict.get?_set_ne _ _ (fun e => ht ⟨rfl, e⟩)
        · unfold sourceOf; rw [hext.same id hlt hii]
    · have : H[i]? = none := List.getElem?_eq_none (Nat.le_of_not_lt hi)
      simp [Heap.addWith, this]
  | setParameter i n v k =>
    simp only [Heap.apply, Heap.setParameter]
    by_cases hi : i < H.length
    · have hid : H[i]? = some H[i] := List.getElem?_eq_getElem hi
      rcases setWith_spec (wrap_same k) hid n (Heap.pickValue n v k) with
        ⟨hk, h⟩ | ⟨hk, e, h⟩ | ⟨hk, H1, st, K, hd, he, hK, hext, hget⟩
      · rw [h]; exact ⟨source_clearPos _ _ _ _, by simp [Heap.clearPos, modify_length]⟩
      · rw [h]; exact ⟨source_clearPos _ _ _ _, by simp [Heap.clearPos, modify_length]⟩
      · rw [he]
        refine ⟨?_, hext.len⟩
        by_cases hii : id = i
        · subst hii
          rw [source_get hget, source_get hid]
          exact Dict.get?_set_ne _ _ (fun e => ht ⟨rfl, e⟩)
        · unfold sourceOf; rw [hext.same id hlt hii]
    · have h0 : H[i]? = none := List.getElem?_eq_none (Nat.le_of_not_lt hi)
      have h1 : (H.clearPos i)[i]? = none := by unfold Heap.clearPos; rw [modify_get, if_pos rfl, h0]; rfl
      simp only [Heap.setWith, h1, source_clearPos]
      exact ⟨trivial, by simp [Heap.clearPos, modify_length]⟩
  | setAllowGradient i n g =>
    simp only [Heap.apply, Heap.setAllowGradient]
    split
    · exact ⟨rfl, Nat.le_refl _⟩
    · rename_i nd hnd
      split
      · refine ⟨?_, by simp [Heap.overrideGradient, modify_length]⟩
        unfold sourceOf Heap.overrideGradient
        rw [modify_get]
        by_cases hii : i = id
        · subst hii
          rw [hnd]
          simp only [Option.map_some, if_true]
          split
          · exact Dict.get?_set_ne _ _ (fun e => ht ⟨rfl, e⟩)
          · rfl
        · rw [if_neg hii]
      · exact ⟨rfl, Nat.le_refl _⟩
  | setGraphPositions r o =>
    simp only [Heap.apply]
    split
    · rename_i H' h
      unfold Heap.setPositions at h
      cases hv : H.visitAll (r :: o) with
      | error e => rw [hv] at h; cases h
      | ok order =>
        rw [hv] at h; cases h
        refine ⟨assign_source _ _ _ _, by simp [Heap.assign]⟩
    · exact ⟨rfl, Nat.le_refl _⟩

/-- C59 (last one wins). After any history, a parameter has the source its last successful
`set_parameter` gave it, however many other calls (on other parameters, other nodes, or creating
nodes) were made since. -/
theorem C59_last_set_wins (H : Heap α σ) (id : NodeId) (hlt : id < H.length) (name : Name)
    (value : PyVal α σ) (kwargs : List (Name × PyVal α σ))
    (hok : (H.setParameter id name value kwargs).2 = none) (later : List (ApiOp α σ))
    (hl : ∀ op ∈ later, ¬ Targets id name op) :
    ∃ v st, Chosen name kwargs value v ∧ Means H (H.setParameter id name value kwargs).1 id name kwargs v st ∧
      sourceOf (H.applyAll (.setParameter id name value kwargs :: later)) id name = some st := by
  obtain ⟨_, _, h⟩ := C59_set_parameter H id hlt name value kwargs (H.setParameter id name value kwargs).1
    (H.setParameter id name value kwargs).2 rfl
  obtain ⟨v, st, h1, h2, h3, _⟩ := h hok
  refine ⟨v, st, h1, h2, ?_⟩
  have hlen : id < (H.setParameter id name value kwargs).1.length := by
    have : (sourceOf (H.setParameter id name value kwargs).1 id name) ≠ none := by rw [h3]; simp
    rcases Nat.lt_or_ge id (H.setParameter id name value kwargs).1.length with h' | h'
    · exact h'
    · exfalso; apply this; unfold sourceOf; rw [List.getElem?_eq_none h']
  have key : ∀ (ops : List (ApiOp α σ)) (K : Heap α σ), id < K.length →
      (∀ op ∈ ops, ¬ Targets id name op) → sourceOf (K.applyAll ops) id name = sourceOf K id name := by
    intro ops
    induction ops with
    | nil => intro K _ _; rfl
    | cons op ops ih =>
      intro K hk hops
      obtain ⟨f1, f2⟩ := C59_frame K op id hk name (hops op (by simp))
      show sourceOf ((K.apply op).1.applyAll ops) id name = _
      rw [ih _ (Nat.lt_of_lt_of_le hk f2) (fun o ho => hops o (List.mem_cons_of_mem _ ho)), f1]
  show sourceOf ((H.setParameter id name value kwargs).1.applyAll later) id name = some st
  rw [key later _ hlen hl, h3]

theorem apply_inv {H : Heap α σ} (hi : BInv plainSub H) (op : ApiOp α σ)
    (hk : match op with
      | .setParameter id name _ _ => ∀ nd, H[id]? = some nd → name ∉ nd.outputs
      | _ => True) : BInv plainSub (H.apply op).1 := by
  cases op with
  | newNode c l a => exact append_inv hi _ rfl rfl
  | newFunction c l f b a o k =>
    simp only [Heap.apply, Heap.newFunction]
    split
    · exact hi
    · rename_i H' n h
      exact (newFunction_spec wrap0_same wrap0_inv h).2.2.2.2 hi
  | addParameter i n v g k =>
    simp only [Heap.apply, Heap.addParameter]
    cases hid : H[i]? with
    | none => simp [Heap.addWith, hid]; exact hi
    | some nd => exact addWith_inv (wrap_same k) (wrap_inv k) hi hid _ _ _
  | setParameter i n v k =>
    simp only [Heap.apply, Heap.setParameter]
    cases hid : H[i]? with
    | none =>
      have h1 : (H.clearPos i)[i]? = none := by unfold Heap.clearPos; rw [modify_get, if_pos rfl, hid]; rfl
      simp only [Heap.setWith, h1]; exact clearPos_inv hi i
    | some nd => exact setWith_inv (wrap_same k) (wrap_inv k) hi hid _ (hk nd hid) _
  | setAllowGradient i n g =>
    simp only [Heap.apply, Heap.setAllowGradient]
    split
    · exact hi
    · rename_i nd hid
      split
      · rename_i hhas
        have ⟨st, hst⟩ : ∃ st, nd.setters.get? n = some st := by
          unfold Dict.has at hhas; exact Option.isSome_iff_exists.1 hhas
        obtain ⟨l1, l2⟩ := hi.links i n st (by rw [source_get hid]; exact hst)
        have hget : (H.overrideGradient i n (some g))[i]? =
            some { nd with setters := nd.setters.set n { st with allowGradient := g } } := by
          unfold Heap.overrideGradient
          rw [modify_get, if_pos rfl, hid]
          simp [hst]
        by_cases hc : ∃ q, st.src = .computeOut q
        · -- the flag of an output
          obtain ⟨q, hc⟩ := hc
          have o := hi.nodes i nd hid
          have hoth : ∀ j : NodeId, j ≠ i → (H.overrideGradient i n (some g))[j]? = H[j]? := by
            intro j hj; unfold Heap.overrideGradient; rw [modify_get, if_neg (fun e => hj e.symm)]
          have hlen : (H.overrideGradient i n (some g)).length = H.length := modify_length _ _ _
          have hkeys : (nd.setters.set n { st with allowGradient := g }).keys = nd.setters.keys := by
            rw [Dict.keys_set, if_pos ((Dict.has_iff _ _).1 hhas)]
          refine ⟨?_, ?_⟩
          · intro j m hj
            rw [hlen]
            by_cases hji : j = i
            · subst hji
              rw [hget] at hj; cases hj
              refine ⟨by show (nd.setters.set n _).keys.Nodup; rw [hkeys]; exact o.keys, ?_, ?_, o.outsNodup, o.plain, o.args⟩
              · intro p s hp d hd
                have hp : (nd.setters.set n { st with allowGradient := g }).get? p = some s := hp
                rw [Dict.get?_set] at hp
                split at hp
                · cases hp; simp [hc, Src.dep] at hd
                · exact o.links p s hp d hd
              · intro p
                show p ∈ nd.outputs ↔ ∃ s q, (nd.setters.set n { st with allowGradient := g }).get? p = some s ∧ s.src = .computeOut q
                by_cases hpn : n = p
                · subst hpn
                  simp only [Dict.get?_set_self]
                  exact ⟨fun _ => ⟨_, q, rfl, hc⟩, fun _ => (o.outs n).2 ⟨st, q, hst, hc⟩⟩
                · simp only [Dict.get?_set_ne _ _ hpn]; exact o.outs p
            · rw [hoth j hji] at hj; exact hi.nodes j m hj
          · intro j p s hs
            have hparam : ∀ d q, HasParam H d q → HasParam (H.overrideGradient i n (some g)) d q := by
              intro d q hp
              obtain ⟨dn, e1, e2⟩ := hasParam_iff.1 hp
              by_cases hd : d = i
              · subst hd
                rw [hid] at e1; cases e1
                exact hasParam_iff.2 ⟨_, hget, by show _ ∈ (nd.setters.set n _).keys; rw [hkeys]; exact e2⟩
              · exact hasParam_iff.2 ⟨dn, by rw [hoth d hd]; exact e1, e2⟩
            have hfn : ∀ d : NodeId, (∃ dn, H[d]? = some dn ∧ dn.isFunc = true) →
                ∃ dn, (H.overrideGradient i n (some g))[d]? = some dn ∧ dn.isFunc = true := by
              rintro d ⟨dn, e1, e2⟩
              by_cases hd : d = i
              · subst hd
                rw [hid] at e1; cases e1
                exact ⟨_, hget, e2⟩
              · exact ⟨dn, by rw [hoth d hd]; exact e1, e2⟩
            have key : (∀ d q, s.src = .modelParam d q → HasParam H d q) ∧
                (∀ d q, s.src = .funcNode d q → ∃ dn, H[d]? = some dn ∧ dn.isFunc = true) := by
              by_cases hji : j = i
              · subst hji
                rw [source_get hget, Dict.get?_set] at hs
                split at hs
                · cases hs; exact ⟨by simp [hc], by simp [hc]⟩
                · exact hi.links j p s (by rw [source_get hid]; exact hs)
              · exact hi.links j p s (by unfold sourceOf at hs ⊢; rw [hoth j hji] at hs; exact hs)
            exact ⟨fun d q e => hparam _ _ (key.1 d q e), fun d q e => hfn _ (key.2 d q e)⟩
        · have hno : n ∉ nd.outputs := by
            intro hm
            obtain ⟨s, q, e1, e2⟩ := ((hi.nodes i nd hid).outs n).1 hm
            have e1 : nd.setters.get? n = some s := e1
            rw [hst] at e1; cases e1
            exact hc ⟨q, e2⟩
          refine hi.put (st := { st with allowGradient := g }) hid hget (modify_length _ _ _) ?_ rfl rfl rfl rfl hno
            (fun q e => hc ⟨q, e⟩) l1 l2
          intro j hj; unfold Heap.overrideGradient; rw [modify_get, if_neg (fun e => hj e.symm)]
      · exact hi
  | setGraphPositions r o =>
    simp only [Heap.apply]
    split
    · rename_i H' h
      unfold Heap.setPositions at h
      cases hv : H.visitAll (r :: o) with
      | error e => rw [hv] at h; cases h
      | ok order =>
        rw [hv] at h; cases h
        apply hi.cosmetic (by simp [Heap.assign])
        intro j nd' hj
        rw [NodeProps.assign_get] at hj
        cases hjj : H[j]? with
        | none => rw [hjj] at hj; cases hj
        | some nd =>
          rw [hjj] at hj
          refine ⟨nd, rfl, ?_⟩
          have args := (hi.nodes j nd hjj).args
          simp only [Option.map_some, Option.some.injEq] at hj
          split at hj <;> (subst hj; exact ⟨rfl, rfl, rfl, args⟩)
    · exact hi

/-- C59 (well-formed graphs). Whatever sequence of graph-building calls a program makes, failing
ones included, as long as it never overrides a declared output of a function node, the graph
satisfies the hypotheses of the sampling theorems: one source per parameter, no dangling link,
outputs exactly the computed parameters. -/
theorem C59_wellformed (ops : List (ApiOp α σ)) (h : KeepsOutputs ([] : Heap α σ) ops) :
    GraphOK (Heap.applyAll [] ops) ∧ LinksExist (Heap.applyAll [] ops) := by
  have key : ∀ (ops : List (ApiOp α σ)) (H : Heap α σ), BInv plainSub H → KeepsOutputs H ops →
      BInv plainSub (H.applyAll ops) := by
    intro ops
    induction ops with
    | nil => intro H hi _; exact hi
    | cons op ops ih => intro H hi hk; exact ih _ (apply_inv hi op hk.1) hk.2
  have h0 : BInv plainSub ([] : Heap α σ) := by
    refine ⟨fun j nd hj => by simp at hj, fun j p st hs => by simp [sourceOf] at hs⟩
  have := key ops [] h0 h
  exact ⟨this.graphOK, this.links⟩

/-- The end-to-end form of C12: on every graph a program can build through the API, sampling
satisfies every defining equation. -/
theorem C12_api_equations (ops : List (ApiOp α σ)) (hk : KeepsOutputs ([] : Heap α σ) ops)
    {roots : List NodeId} {given : Option (GState.UpdateArg α)} (hg : GivenOK given) {n : Int} {w : σ}
    {r : Heap.Run α σ} (h : Heap.sampleFrom (Heap.applyAll [] ops) roots given n w = .ok r) :
    ∀ id nd, Reach (Heap.applyAll [] ops) roots id → (Heap.applyAll [] ops)[id]? = some nd →
      ∀ p st, (p, st) ∈ nd.setters → (¬ ∃ v, Given given nd.str p v) →
        Equation (Heap.applyAll [] ops) r.gs r.calls id nd p st.src :=
  NodeProps.C12_equations (C59_wellformed ops hk).1 hg h

end LCL.ApiProps
