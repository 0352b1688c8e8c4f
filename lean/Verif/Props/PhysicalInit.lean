import Verif.Lemmas.PhysicalInit

/-!
# Property C96: the distance of a physical model
-/

namespace LCL.PhysicalInitProps
open LCL LCL.GraphSpec LCL.NodeSpec LCL.ApiSpec LCL.ApiLemmas LCL.PhysicalInit LCL.InitLemmas
variable {α σ : Type}

/-- The distances `w` of the redshifts `v`, number by number. -/
def Distances (D : α → α) (v w : Val α) : Prop :=
  (∃ z, v = .scalar z ∧ w = .scalar (D z)) ∨ ∃ zs : List α, v = .arr (zs.map Val.scalar) ∧ w = .arr (zs.map fun z => Val.scalar (D z))

theorem distOf_ok {D : α → α} {v w : Val α} (h : distOf D v = .ok w) : Distances D v w := by
  unfold distOf at h
  cases v with
  | none => cases h
  | scalar z => injection h with h; exact Or.inl ⟨z, rfl, h.symm⟩
  | arr rows =>
    dsimp only at h
    split at h
    · rename_i hall
      injection h with h
      subst h
      right
      induction rows with
      | nil => exact ⟨[], rfl, rfl⟩
      | cons x rows ih =>
        rw [List.all_cons, Bool.and_eq_true] at hall
        obtain ⟨zs, e1, e2⟩ := ih hall.2
        injection e1 with e1
        injection e2 with e2
        cases x with
        | scalar z => exact ⟨z :: zs, by rw [e1]; rfl, by rw [List.map_cons, e2]; rfl⟩
        | none => simp at hall
        | arr r => simp at hall
    · cases h

/-- The function node that computes distances. -/
def distNode (D : α → α) (id : NodeId) : PNode α σ :=
  { Heap.freshNode "RedshiftDistFunc".toList none true (some "redshift_to_distance".toList) (some (distBody D)) (funcAttrs ++ [redshiftName, resultName]) with
    setters := [(redshiftName, ⟨.modelParam id redshiftName, false⟩), (resultName, ⟨.computeOut resultName, false⟩)]
    argNames := [redshiftName]
    outputs := [resultName] }

theorem set_new : ∀ (d : Dict Name (Setter α)) (k : Name) (a b : Setter α), k ∉ d.keys → (d.set k a).set k b = d ++ [(k, b)]
  | [], k, a, b, _ => by simp [Dict.set]
  | (k', v) :: d, k, a, b, h => by
    have h1 : k' ≠ k := fun e => h (by simp [Dict.keys, e])
    have h2 : k ∉ Dict.keys d := fun e => h (by simp [Dict.keys] at e ⊢; exact Or.inr e)
    simp only [Dict.set, if_neg h1]
    rw [set_new d k a b h2]
    rfl

theorem add_last (mk : Mk α σ) (H : Heap α σ) (nd : PNode α σ) (name : Name) (ha : name ∉ nd.attrs) (hk : name ∉ nd.setters.keys) (v : PyVal α σ) (st : Setter α)
    (hv : ∀ x : PNode α σ, Heap.setSource mk (H ++ [x]) H.length name v = (Heap.putSource (H ++ [x]) H.length name st, none)) :
    Heap.addWith mk (H ++ [nd]) H.length name v none =
      (H ++ [{ nd with pos := none, setters := nd.setters ++ [(name, st)], attrs := nd.attrs ++ [name] }], none) := by
  have hh : nd.setters.has name = false := by
    cases h : nd.setters.has name with
    | false => rfl
    | true => exact absurd ((Dict.has_iff _ _).mp h) hk
  have hh2 : (nd.setters.set name ⟨.undefined, false⟩).has name = true := by
    rw [Dict.has_iff, Dict.mem_keys_set]; exact Or.inl rfl
  unfold Heap.addWith
  rw [get_last]
  dsimp only
  rw [if_neg (fun h => ha h.1), if_neg (by rw [hh]; exact Bool.false_ne_true)]
  unfold Heap.setWith
  dsimp only
  rw [Heap.putSource, modify_last, Heap.clearPos, modify_last, get_last]
  dsimp only
  rw [if_pos hh2, hv, Heap.putSource, modify_last]
  dsimp only
  rw [Heap.overrideGradient, modify_last, set_new _ _ _ _ hk]

theorem newDist (H : Heap α σ) (D : α → α) (id : NodeId) (hp : HasParam H id redshiftName) :
    H.newFunction "RedshiftDistFunc".toList none (some "redshift_to_distance".toList) (some (distBody D)) funcAttrs []
      [(redshiftName, .method id redshiftName)] = (H ++ [distNode D id], none) := by
  obtain ⟨pn, h1, h2⟩ := hasParam_iff.mp hp
  have hlt := lt_of_get h1
  have hget : ∀ x : PNode α σ, (H ++ [x])[id]? = some pn := fun x => by rw [List.getElem?_append_left hlt]; exact h1
  have hhas : pn.setters.has redshiftName = true := (Dict.has_iff _ _).mpr h2
  unfold Heap.newFunction Heap.newFunctionWith
  dsimp only
  rw [Heap.addArgs, modify_last, add_last _ H _ redshiftName (show redshiftName ∉ funcAttrs by decide) (by intro h; exact absurd h (by simp [Heap.freshNode, PNode.updateString, Dict.keys])) _
    ⟨.modelParam id redshiftName, false⟩ (by intro x; simp only [Heap.setSource, hget, hhas, if_true])]
  dsimp only
  rw [Heap.addArgs]
  dsimp only
  rw [modify_last]
  show (match (match Heap.addOutputs (H ++ [_]) H.length [resultName] with
    | (_, some e) => Except.error e
    | (H_1, none) => Except.ok (H_1, H.length)) with | .error e => (H, some e) | .ok (H', _) => (H', none)) = _
  rw [Heap.addOutputs, add_last _ H _ resultName ?ha ?hk _ ⟨.const .none, true⟩ (fun _ => rfl)]
  · dsimp only
    rw [Heap.putSource, modify_last, Heap.addOutputs]
    rfl
  case ha => exact (show resultName ∉ funcAttrs ++ [redshiftName] by decide)
  case hk => exact (show resultName ∉ [redshiftName] by decide)

theorem runOps_cons {H H' : Heap α σ} {op : ApiOp α σ} {ops : List (ApiOp α σ)} (h : runOps H (op :: ops) = .ok H') :
    ∃ K, H.apply op = (K, none) ∧ runOps K ops = .ok H' := by
  unfold runOps at h
  cases hop : H.apply op with
  | mk K e =>
    rw [hop] at h
    cases e with
    | none => exact ⟨K, rfl, h⟩
    | some e => cases h

theorem length_op (H : Heap α σ) (op : ApiOp α σ) : H.length ≤ (H.apply op).1.length := length_later [op] H

/-- A parameter added to a node without an error has the source its value denotes. -/
theorem added {H K : Heap α σ} {id : NodeId} (hlt : id < H.length) {name : Name} {v : PyVal α σ} {g : Option Bool} (hv : v ≠ .method id name)
    (h : H.apply (.addParameter id name v g []) = (K, none)) :
    ∃ st st', Means H K id name [] v st ∧ sourceOf K id name = some st' ∧ st'.src = st.src := by
  obtain ⟨nd, hnd⟩ : ∃ nd, H[id]? = some nd := ⟨H[id], List.getElem?_eq_getElem hlt⟩
  have hself : ∀ u, Chosen name [] v u → u ≠ .method id name := by
    intro u hu
    cases hu with
    | explicit => exact hv
    | keyword h => cases h
    | absent => intro h; cases h
  obtain ⟨c1, c2⟩ := ApiProps.C59_add_parameter H id nd hnd name v g [] hself K none h
  by_cases hp : HasParam H id name ∨ name ∈ nd.attrs
  · exact absurd (c1 hp).1 (by simp)
  · obtain ⟨u, st, hu, hm, st', h1, h2, _⟩ := (c2 (fun h => hp (Or.inl h)) (fun h => hp (Or.inr h))).2.2 rfl
    have : u = v := by
      cases hu with
      | explicit => rfl
      | keyword h => cases h
      | absent => rfl
    subst this
    exact ⟨st, st', hm, h1, h2⟩

/-- After the first part of the constructor the node exists and has a redshift. -/
theorem head_facts {H H1 : Heap α σ} {cls : Name} {attrs : List Name} {a : Args α σ} (hz : a.redshift ≠ .method H.length redshiftName)
    (h : runOps H (headOps cls attrs H.length a) = .ok H1) : H.length < H1.length ∧ HasParam H1 H.length redshiftName := by
  unfold headOps at h
  obtain ⟨K1, e1, h⟩ := runOps_cons h
  obtain ⟨K2, e2, h⟩ := runOps_cons h
  obtain ⟨K3, e3, h⟩ := runOps_cons h
  obtain ⟨K4, e4, h⟩ := runOps_cons h
  obtain ⟨K5, e5, h⟩ := runOps_cons h
  injection h with h
  subst h
  have l1 : H.length < K1.length := by
    injection e1 with e1 _
    rw [← e1]; simp [Heap.newNode]
  have l2 : K1.length ≤ K2.length := by have := length_op K1 (.addParameter H.length raName a.ra (some false) []); rw [e2] at this; exact this
  have l3 : K2.length ≤ K3.length := by have := length_op K2 (.addParameter H.length decName a.dec (some false) []); rw [e3] at this; exact this
  have l4 : K3.length ≤ K4.length := by have := length_op K3 (.addParameter H.length redshiftName a.redshift (some false) []); rw [e4] at this; exact this
  have l5 : K4.length ≤ K5.length := by have := length_op K4 (.addParameter H.length t0Name a.t0 none []); rw [e5] at this; exact this
  refine ⟨by omega, ?_⟩
  have b3 : H.length < K3.length := by omega
  have b4 : H.length < K4.length := by omega
  obtain ⟨_, st', _, hs, _⟩ := added b3 hz e4
  have hf := ApiProps.C59_frame K4 (.addParameter H.length t0Name a.t0 none []) H.length b4 redshiftName (by
    intro ht; exact absurd ht.2 (by decide))
  rw [e5] at hf
  exact ⟨st', by rw [hf.1]; exact hs⟩

theorem headOps_notSet (cls : Name) (attrs : List Name) (id : NodeId) (a : Args α σ) : ∀ op ∈ headOps cls attrs id a, NotSet op := by
  intro op h
  simp only [headOps, List.mem_cons, List.not_mem_nil, or_false] at h
  rcases h with rfl | rfl | rfl | rfl | rfl <;> trivial

theorem tailOps_notSet (id fid : NodeId) (a : Args α σ) : ∀ op ∈ tailOps id fid a, NotSet op := by
  intro op h
  unfold tailOps at h
  split at h
  · simp at h; subst h; trivial
  · split at h
    · simp only [List.mem_cons, List.not_mem_nil, or_false] at h
      rcases h with rfl | rfl <;> trivial
    · simp at h; subst h; trivial

theorem init_split {H H2 : Heap α σ} {cls : Name} {attrs : List Name} {a : Args α σ} (h : physicalInit H cls attrs a = .ok H2) :
    ∃ H1, runOps H (headOps cls attrs H.length a) = .ok H1 ∧ runOps H1 (tailOps H.length H1.length a) = .ok H2 := by
  unfold physicalInit at h
  cases h1 : runOps H (headOps cls attrs H.length a) with
  | error e => rw [h1] at h; cases h
  | ok H1 => rw [h1] at h; exact ⟨H1, rfl, h⟩

/-- A model built by a program, possibly changed later, is still a graph built by API calls. -/
theorem history {ops later : List (ApiOp α σ)} (hk : KeepsOutputs ([] : Heap α σ) ops) {H2 : Heap α σ} {cls : Name} {attrs : List Name} {a : Args α σ}
    (h : physicalInit (Heap.applyAll [] ops) cls attrs a = .ok H2) (hk2 : KeepsOutputs H2 later) :
    ∃ all, KeepsOutputs ([] : Heap α σ) all ∧ Heap.applyAll [] all = H2.applyAll later := by
  obtain ⟨H1, h1, h2⟩ := init_split h
  refine ⟨ops ++ (headOps cls attrs (Heap.applyAll [] ops).length a ++ (tailOps (Heap.applyAll [] ops).length H1.length a ++ later)), ?_, ?_⟩
  · refine keeps_append _ _ _ hk (keeps_append _ _ _ (keeps_notSet _ _ (headOps_notSet _ _ _ _)) ?_)
    rw [runOps_applyAll _ _ _ h1]
    refine keeps_append _ _ _ (keeps_notSet _ _ (tailOps_notSet _ _ _)) ?_
    rw [runOps_applyAll _ _ _ h2]
    exact hk2
  · rw [applyAll_append, applyAll_append, applyAll_append, runOps_applyAll _ _ _ h1, runOps_applyAll _ _ _ h2]

theorem cosmology_main {ops : List (ApiOp α σ)} (hk : KeepsOutputs ([] : Heap α σ) ops) {H2 : Heap α σ} {cls : Name} {attrs : List Name} {a : Args α σ}
    {D : α → α} (hd : given a.distance = false) (hz : given a.redshift = true) (hc : a.cosmology = some D) (he : a.extra = [])
    (hown : a.redshift ≠ .method (Heap.applyAll [] ops).length redshiftName)
    (hinit : physicalInit (Heap.applyAll [] ops) cls attrs a = .ok H2) :
    ∃ fid, (Heap.applyAll [] ops).length < fid ∧ fid < H2.length ∧
      ∀ later, KeepsOutputs H2 later →
        (∀ op ∈ later, ¬ Targets (Heap.applyAll [] ops).length distanceName op ∧ ∀ p, ¬ Targets fid p op) →
      ∀ roots giv n w r, GivenOK giv → Heap.sampleFrom (H2.applyAll later) roots giv n w = .ok r →
        Reach (H2.applyAll later) roots (Heap.applyAll [] ops).length →
      ∀ nd fnd, (H2.applyAll later)[(Heap.applyAll [] ops).length]? = some nd → (H2.applyAll later)[fid]? = some fnd →
        (¬ ∃ v, Given giv nd.str distanceName v) → (∀ p, ¬ ∃ v, Given giv fnd.str p v) →
      ∃ zs ds, readParam r.gs nd.str redshiftName = some zs ∧ readParam r.gs nd.str distanceName = some ds ∧ Distances D zs ds := by
  generalize hH : Heap.applyAll ([] : Heap α σ) ops = H at *
  obtain ⟨H1, h1, h2⟩ := init_split hinit
  obtain ⟨hl1, hp⟩ := head_facts hown h1
  have h2' := h2
  unfold tailOps at h2
  rw [hd, hz, hc, he] at h2
  simp only [Bool.false_eq_true, if_false] at h2
  obtain ⟨K, e1, h2⟩ := runOps_cons h2
  obtain ⟨K2, e2, h2⟩ := runOps_cons h2
  injection h2 with h2
  subst h2
  have hK : K = H1 ++ [distNode D H.length] := by
    have : H1.newFunction "RedshiftDistFunc".toList none (some "redshift_to_distance".toList) (some (distBody D)) funcAttrs []
      [(redshiftName, .method H.length redshiftName)] = (K, none) := e1
    rw [newDist H1 D H.length hp] at this
    injection this with this _
    exact this.symm
  have hKlen : K.length = H1.length + 1 := by rw [hK]; simp
  have hKget : K[H1.length]? = some (distNode D H.length) := by rw [hK]; exact get_last _ _
  have hlen2 : K.length ≤ K2.length := by
    have := length_op K (.addParameter H.length distanceName (.node H1.length) (some false) []); rw [e2] at this; exact this
  refine ⟨H1.length, hl1, by omega, ?_⟩
  intro later hk2 hlater roots giv n w r hgiv hs hreach nd fnd hnd hfnd hg1 hg2
  obtain ⟨all, hall, hallEq⟩ := history (by rw [hH] at *; exact hk) (hH ▸ hinit) hk2
  have hok := (ApiProps.C59_wellformed all hall).1
  rw [hallEq] at hok
  -- the sources
  have b1 : H.length < K2.length := by omega
  have b2 : H1.length < K2.length := by omega
  have b3 : H1.length < K.length := by omega
  obtain ⟨st, st', hm, hsrc, hsame⟩ := added (K := K2) (by omega : H.length < K.length) (by simp) e2
  have hst : st'.src = .funcNode H1.length resultName := by
    rw [hsame]
    cases hm with
    | output h1 h2 h3 =>
      rw [hKget] at h1
      injection h1 with h1
      subst h1
      exact absurd h3 (show distanceName ∉ [resultName] by decide)
    | result => rfl
    | sameName h1 h2 =>
      rw [hKget] at h1
      injection h1 with h1
      subst h1
      cases h2
  have hsrcL : sourceOf (K2.applyAll later) H.length distanceName = some st' := by
    rw [source_later _ _ _ _ b1 (fun op ho => (hlater op ho).1)]; exact hsrc
  have hf (p : Name) : sourceOf (K2.applyAll later) H1.length p = (distNode D H.length : PNode α σ).setters.get? p := by
    rw [source_later _ _ _ _ b2 (fun op ho => (hlater op ho).2 p)]
    have := (ApiProps.C59_frame K (.addParameter H.length distanceName (.node H1.length) (some false) []) H1.length b3 p
      (by intro ht; exact absurd ht.1 (Nat.ne_of_lt hl1))).1
    rw [e2] at this
    rw [this, source_get hKget]
  obtain ⟨fnd1, g1, c1⟩ := core_op K (.addParameter H.length distanceName (.node H1.length) (some false) []) H1.length _ hKget
  rw [e2] at g1
  obtain ⟨fnd2, g2, c2⟩ := core_later H1.length later K2 fnd1 g1
  rw [hfnd] at g2
  injection g2 with g2
  subst g2
  have hbody : fnd.body = some (distBody D) := (c2.2.1.symm.trans c1.2.1.symm)
  have hargs : fnd.argNames = [redshiftName] := (c2.2.2.1.symm.trans c1.2.2.1.symm)
  have houts : fnd.outputs = [resultName] := (c2.2.2.2.symm.trans c1.2.2.2.symm)
  rw [source_get hnd] at hsrcL
  have hmem := Dict.mem_of_get? hsrcL
  have hreachF : Reach (K2.applyAll later) roots H1.length :=
    .step hreach ⟨nd, distanceName, st', hnd, hmem, Or.inr ⟨_, hst⟩⟩
  have q1 := NodeProps.C12_equations hok hgiv hs _ nd hreach hnd _ _ hmem hg1
  rw [hst] at q1
  obtain ⟨dn, ds, q2, q3, q4⟩ := q1
  rw [hfnd] at q2
  injection q2 with q2
  subst q2
  have hfr : (redshiftName, (⟨.modelParam H.length redshiftName, false⟩ : Setter α)) ∈ fnd.setters := by
    apply Dict.mem_of_get?
    rw [← source_get hfnd, hf]; rfl
  have hfo : (resultName, (⟨.computeOut resultName, false⟩ : Setter α)) ∈ fnd.setters := by
    apply Dict.mem_of_get?
    rw [← source_get hfnd, hf]; rfl
  obtain ⟨dn, zs, r1, r2, r3⟩ := NodeProps.C12_equations hok hgiv hs _ fnd hreachF hfnd _ _ hfr (hg2 _)
  rw [hnd] at r1
  injection r1 with r1
  subst r1
  obtain ⟨args, res, u, w', s1, s2, s3, s4, s5⟩ := NodeProps.C12_equations hok hgiv hs _ fnd hreachF hfnd _ _ hfo (hg2 _)
  rw [q3] at s5
  injection s5 with s5
  subst s5
  obtain ⟨v, t1, t2⟩ := s2.1 redshiftName (by rw [hargs]; simp)
  rw [r3] at t1
  injection t1 with t1
  subst t1
  obtain ⟨nd', f, w1, w2, x1, x2, x3⟩ := thread_call (NodeProps.C12_each_once hok hgiv hs).2.2 _ _ _ s1
  rw [hfnd] at x1
  injection x1 with x1
  subst x1
  rw [hbody] at x2
  injection x2 with x2
  subst x2
  have hres : distOf D zs = .ok res := by
    unfold distBody at x3
    injection x3 with _ x3
    split at x3
    · rw [t2] at x3; exact x3
    · cases x3
  have hDist := distOf_ok hres
  have hu : u = res := by
    rcases s3 with ⟨_, h⟩ | ⟨h, _⟩
    · exact h
    · rw [houts] at h; exact absurd rfl h
  subst hu
  refine ⟨zs, ds, r2, q4, ?_⟩
  rcases s4 with ⟨_, h⟩ | ⟨hn, rows, h3, h4, h5 | ⟨x, h5, _⟩⟩
  · rw [h]; exact hDist
  · rw [h3, ← h5]; exact hDist
  · -- several samples: the redshift is an array, so the result is one
    exfalso
    obtain ⟨c1, c2, _⟩ := NodeProps.C14_complete hok hgiv hs
    obtain ⟨v, y1, y2⟩ := c2 _ fnd hreachF hfnd _ hfr
    dsimp only at y1
    rw [r3] at y1
    injection y1 with y1
    subst y1
    obtain ⟨rs, y3, _⟩ := y2 (by intro e; rw [e] at c1; omega)
    subst y3
    rw [h5] at hDist
    rcases hDist with ⟨z, hz, _⟩ | ⟨zs, _, hz⟩
    · cases hz
    · cases hz

theorem constant_main {ops : List (ApiOp α σ)} (hk : KeepsOutputs ([] : Heap α σ) ops) {H2 : Heap α σ} {cls : Name} {attrs : List Name} {a : Args α σ} {c : Val α}
    (hd : a.distance = .const c) (hcase : c ≠ .none ∨ a.cosmology = none ∨ a.redshift = .const .none)
    (hown : a.redshift ≠ .method (Heap.applyAll [] ops).length redshiftName)
    (hinit : physicalInit (Heap.applyAll [] ops) cls attrs a = .ok H2)
    {later : List (ApiOp α σ)} (hk2 : KeepsOutputs H2 later) (hlater : ∀ op ∈ later, ¬ Targets (Heap.applyAll [] ops).length distanceName op)
    {roots : List NodeId} {giv : Option (GState.UpdateArg α)} {n : Int} {w : σ} {r : Heap.Run α σ} (hgiv : GivenOK giv)
    (hs : Heap.sampleFrom (H2.applyAll later) roots giv n w = .ok r) (hreach : Reach (H2.applyAll later) roots (Heap.applyAll [] ops).length)
    {nd : PNode α σ} (hnd : (H2.applyAll later)[(Heap.applyAll [] ops).length]? = some nd) (hg1 : ¬ ∃ v, Given giv nd.str distanceName v) :
    ∃ ds, readParam r.gs nd.str distanceName = some ds ∧ Repeated r.gs.numSamples c ds := by
  generalize hH : Heap.applyAll ([] : Heap α σ) ops = H at *
  obtain ⟨H1, h1, h2⟩ := init_split hinit
  obtain ⟨hl1, hp⟩ := head_facts hown h1
  have htail : tailOps H.length H1.length a = [.addParameter H.length distanceName (.const c) (some false) []] := by
    unfold tailOps
    rw [hd]
    by_cases hc : c = .none
    · subst hc
      rw [if_neg (by simp [given])]
      rcases hcase with h | h | h
      · exact absurd rfl h
      · rw [h]; cases given a.redshift <;> rfl
      · rw [h]; rfl
    · rw [if_pos (by cases c <;> first | rfl | exact absurd rfl hc)]
  rw [htail] at h2
  obtain ⟨K, e1, h2⟩ := runOps_cons h2
  injection h2 with h2
  subst h2
  obtain ⟨st, st', hm, hsrc, hsame⟩ := added (K := K) hl1 (by simp) e1
  have hst : st'.src = .const c := by
    rw [hsame]; cases hm; rfl
  have hlenK : H1.length ≤ K.length := by
    have := length_op H1 (.addParameter H.length distanceName (.const c) (some false) []); rw [e1] at this; exact this
  have b1 : H.length < K.length := by omega
  have hsrcL : sourceOf (K.applyAll later) H.length distanceName = some st' := by
    rw [source_later _ _ _ _ b1 hlater]; exact hsrc
  rw [source_get hnd] at hsrcL
  obtain ⟨all, hall, hallEq⟩ := history (by rw [hH] at *; exact hk) (hH ▸ hinit) hk2
  have hok := (ApiProps.C59_wellformed all hall).1
  rw [hallEq] at hok
  have q := NodeProps.C12_equations hok hgiv hs _ nd hreach hnd _ _ (Dict.mem_of_get? hsrcL) hg1
  rw [hst] at q
  exact q

theorem body_rejects (D : α → α) (w w' : σ) (n : Nat) (args : Dict Name (Val α)) (res v : Val α) (k : Name) (hk : k ≠ redshiftName)
    (hv : args.get? k = some v) : distBody D w n args ≠ (w', .ok res) := by
  intro h
  unfold distBody at h
  injection h with _ h
  split at h
  · rename_i hall
    rw [List.all_eq_true] at hall
    have := hall k (List.mem_map.mpr ⟨_, Dict.mem_of_get? hv, rfl⟩)
    exact hk (by simpa using this)
  · cases h

theorem keyword_main {ops : List (ApiOp α σ)} (hk : KeepsOutputs ([] : Heap α σ) ops) {H2 : Heap α σ} {cls : Name} {attrs : List Name} {a : Args α σ}
    {D : α → α} (hd : given a.distance = false) (hz : given a.redshift = true) (hc : a.cosmology = some D) {k : Name} {val : PyVal α σ} {rest : List (Name × PyVal α σ)}
    (he : a.extra = (k, val) :: rest) (hkr : k ≠ redshiftName)
    (hown : a.redshift ≠ .method (Heap.applyAll [] ops).length redshiftName)
    (hinit : physicalInit (Heap.applyAll [] ops) cls attrs a = .ok H2) :
    ∃ fid, (Heap.applyAll [] ops).length < fid ∧ fid < H2.length ∧
      ∀ later, KeepsOutputs H2 later → (∀ op ∈ later, ¬ Targets (Heap.applyAll [] ops).length distanceName op) →
      ∀ roots giv n w, GivenOK giv → Reach (H2.applyAll later) roots (Heap.applyAll [] ops).length →
        (∀ fnd, (H2.applyAll later)[fid]? = some fnd → ∀ p, ¬ ∃ v, Given giv fnd.str p v) →
        ∀ r, Heap.sampleFrom (H2.applyAll later) roots giv n w ≠ .ok r := by
  generalize hH : Heap.applyAll ([] : Heap α σ) ops = H at *
  obtain ⟨H1, h1, h2⟩ := init_split hinit
  obtain ⟨hl1, hp⟩ := head_facts hown h1
  unfold tailOps at h2
  rw [hd, hz, hc, he] at h2
  simp only [Bool.false_eq_true, if_false] at h2
  obtain ⟨K, e1, h2⟩ := runOps_cons h2
  obtain ⟨K2, e2, h2⟩ := runOps_cons h2
  injection h2 with h2
  subst h2
  have hn : ∃ m, Heap.newFunctionWith Heap.wrap0 H1 "RedshiftDistFunc".toList none (some "redshift_to_distance".toList) (some (distBody D)) funcAttrs []
      ((redshiftName, .method H.length redshiftName) :: (k, val) :: rest) = .ok (K, m) := by
    simp only [Heap.apply, Heap.newFunction] at e1
    split at e1
    · cases e1
    · rename_i H' m h
      injection e1 with e1 _
      subst e1
      exact ⟨m, h⟩
  obtain ⟨m, hn⟩ := hn
  obtain ⟨hm0, hlK, -, ⟨nn, hnn, hfun, -, hbody, -, -, houts, hargs, -⟩, -⟩ := newFunction_spec wrap0_same wrap0_inv hn
  subst hm0
  have hlen2 : K.length ≤ K2.length := by
    have := length_op K (.addParameter H.length distanceName (.node H1.length) (some false) []); rw [e2] at this; exact this
  refine ⟨H1.length, hl1, by omega, ?_⟩
  intro later hk2 hlater roots giv n w hgiv hreach hg2 r hs
  have b0 : H.length < K.length := by omega
  have b1 : H.length < K2.length := by omega
  obtain ⟨all, hall, hallEq⟩ := history (by rw [hH] at *; exact hk) (hH ▸ hinit) hk2
  have hok := (ApiProps.C59_wellformed all hall).1
  rw [hallEq] at hok
  obtain ⟨st, st', hm, hsrc, hsame⟩ := added (K := K2) b0 (by simp) e2
  have hst : ∃ q, st'.src = .funcNode H1.length q := by
    rw [hsame]
    cases hm with
    | output => exact ⟨_, rfl⟩
    | result => exact ⟨_, rfl⟩
    | sameName h1 h2 =>
      rw [hnn] at h1
      injection h1 with h1
      subst h1
      rw [hfun] at h2; cases h2
  obtain ⟨q, hst⟩ := hst
  have hsrcL : sourceOf (K2.applyAll later) H.length distanceName = some st' := by
    rw [source_later _ _ _ _ b1 hlater]; exact hsrc
  obtain ⟨fnd1, g1, c1⟩ := core_op K (.addParameter H.length distanceName (.node H1.length) (some false) []) H1.length _ hnn
  rw [e2] at g1
  obtain ⟨fnd, hfnd, c2⟩ := core_later H1.length later K2 fnd1 g1
  have hbody' : fnd.body = some (distBody D) := by rw [← c2.2.1, ← c1.2.1, hbody]
  have hargs' : k ∈ fnd.argNames := by rw [← c2.2.2.1, ← c1.2.2.1, hargs]; simp
  have houts' : fnd.outputs = [resultName] := by rw [← c2.2.2.2, ← c1.2.2.2, houts]; rfl
  obtain ⟨nd, hnd⟩ : ∃ nd, (K2.applyAll later)[H.length]? = some nd := by
    unfold sourceOf at hsrcL
    split at hsrcL
    · rename_i nd h; exact ⟨nd, h⟩
    · cases hsrcL
  rw [source_get hnd] at hsrcL
  have hreachF : Reach (K2.applyAll later) roots H1.length :=
    .step hreach ⟨nd, distanceName, st', hnd, Dict.mem_of_get? hsrcL, Or.inr ⟨_, hst⟩⟩
  obtain ⟨so, qo, hfo, hso⟩ := (hok.outs fnd (List.mem_of_getElem? hfnd) resultName).mp (by rw [houts']; simp)
  have q := NodeProps.C12_equations hok hgiv hs _ fnd hreachF hfnd _ _ hfo (hg2 _ hfnd _)
  rw [hso] at q
  obtain ⟨args, res, u, w', s1, s2, -⟩ := q
  obtain ⟨v, -, t2⟩ := s2.1 k hargs'
  obtain ⟨nd', f, w1, w2, x1, x2, x3⟩ := thread_call (NodeProps.C12_each_once hok hgiv hs).2.2 _ _ _ s1
  rw [hfnd] at x1
  injection x1 with x1
  subst x1
  rw [hbody'] at x2
  injection x2 with x2
  subst x2
  exact body_rejects D _ _ _ _ _ v k hkr t2 x3

/-! ## Concrete models -/

/-- A model at redshift `z` in a cosmology with distance `4000 z`; `z` from a function node that draws a number for each sample. -/
def sampler : ApiOp Nat Nat :=
  .newFunction "Z".toList (some "zfun".toList) (some "f".toList)
    (some fun w n _ => (w + 1, .ok (if n = 1 then .scalar w else .arr ((List.range n).map fun i => .scalar (w + i))))) funcAttrs [] []

def demoArgs (extra : List (Name × PyVal Nat Nat)) : Args Nat Nat where
  label := some "model".toList
  ra := .const (.scalar 10)
  dec := .const (.scalar 20)
  redshift := .node 0
  t0 := .const .none
  distance := .const .none
  cosmology := some (fun z => 4000 * z)
  extra := extra

/-- The model can be built and sampled, and the distances are those of the drawn redshifts (the hypotheses of C96 hold of it). -/
example : KeepsOutputs ([] : Heap Nat Nat) [sampler] ∧
    (∃ H2 r, physicalInit (Heap.applyAll [] [sampler]) "SEDModel".toList [] (demoArgs []) = .ok H2 ∧ Heap.sampleFrom H2 [1] none 1 7 = .ok r ∧
      readParam r.gs "model".toList redshiftName = some (.scalar 7) ∧ readParam r.gs "model".toList distanceName = some (.scalar 28000)) ∧
    (∃ H2 r, physicalInit (Heap.applyAll [] [sampler]) "SEDModel".toList [] (demoArgs []) = .ok H2 ∧ Heap.sampleFrom H2 [1] none 3 7 = .ok r ∧
      readParam r.gs "model".toList redshiftName = some (.arr [.scalar 7, .scalar 8, .scalar 9]) ∧
      readParam r.gs "model".toList distanceName = some (.arr [.scalar 28000, .scalar 32000, .scalar 36000])) := by
  refine ⟨⟨trivial, trivial⟩, ⟨_, _, rfl, rfl, ?_, ?_⟩, ⟨_, _, rfl, rfl, ?_, ?_⟩⟩ <;> rfl

/-- What the constructor of a host with a host mass and a cosmology builds. -/
def hostHeap : Heap Nat Nat :=
  match sniaHostInit (Heap.applyAll [] [sampler]) [] (demoArgs []) (.const (.scalar 11)) with
  | .ok H => H
  | .error _ => []

/-- The exception of a call. -/
def raised {β : Type} : Except Err β → Option Err
  | .error e => some e
  | .ok _ => none

/-- A supernova host with a host mass and a cosmology can be built, but sampling it raises TypeError (the general statement is
`C96_keyword_counterexample`). -/
theorem C96_host_counterexample : sniaHostInit (Heap.applyAll [] [sampler]) [] (demoArgs []) (.const (.scalar 11)) = .ok hostHeap ∧
    raised (Heap.sampleFrom hostHeap [1] none 1 7) = some .typeError :=
  ⟨rfl, by decide +kernel⟩

/-- C96: a model built, anywhere in a program, with a redshift, a cosmology and no distance gets a private function node such that in every
sampled state, whatever the program did later except setting the distance (or touching that node), whatever the redshift comes from, and for every number of samples,
the distance of each sample is the cosmology's luminosity distance of that sample's redshift. -/
theorem C96_cosmology {ops : List (ApiOp α σ)} (hk : KeepsOutputs ([] : Heap α σ) ops) {H2 : Heap α σ} {cls : Name} {attrs : List Name} {a : Args α σ}
    {D : α → α} (hd : given a.distance = false) (hz : given a.redshift = true) (hc : a.cosmology = some D) (he : a.extra = [])
    (hown : a.redshift ≠ .method (Heap.applyAll [] ops).length "redshift".toList)
    (hinit : physicalInit (Heap.applyAll [] ops) cls attrs a = .ok H2) :
    ∃ fid, (Heap.applyAll [] ops).length < fid ∧ fid < H2.length ∧
      ∀ later, KeepsOutputs H2 later →
        (∀ op ∈ later, ¬ Targets (Heap.applyAll [] ops).length "distance".toList op ∧ ∀ p, ¬ Targets fid p op) →
      ∀ roots giv n w r, GivenOK giv → Heap.sampleFrom (H2.applyAll later) roots giv n w = .ok r →
        Reach (H2.applyAll later) roots (Heap.applyAll [] ops).length →
      ∀ nd fnd, (H2.applyAll later)[(Heap.applyAll [] ops).length]? = some nd → (H2.applyAll later)[fid]? = some fnd →
        (¬ ∃ v, Given giv nd.str "distance".toList v) → (∀ p, ¬ ∃ v, Given giv fnd.str p v) →
      ∃ zs ds, readParam r.gs nd.str "redshift".toList = some zs ∧ readParam r.gs nd.str "distance".toList = some ds ∧ Distances D zs ds :=
  cosmology_main hk hd hz hc he hown hinit

/-- C96, the other cases: a distance given as a number is the distance of every sample, whatever the cosmology; with neither a distance nor (a redshift and
a cosmology) the distance is `None`. -/
theorem C96_constant {ops : List (ApiOp α σ)} (hk : KeepsOutputs ([] : Heap α σ) ops) {H2 : Heap α σ} {cls : Name} {attrs : List Name} {a : Args α σ} {c : Val α}
    (hd : a.distance = .const c) (hcase : c ≠ .none ∨ a.cosmology = none ∨ a.redshift = .const .none)
    (hown : a.redshift ≠ .method (Heap.applyAll [] ops).length "redshift".toList)
    (hinit : physicalInit (Heap.applyAll [] ops) cls attrs a = .ok H2)
    {later : List (ApiOp α σ)} (hk2 : KeepsOutputs H2 later) (hlater : ∀ op ∈ later, ¬ Targets (Heap.applyAll [] ops).length "distance".toList op)
    {roots : List NodeId} {giv : Option (GState.UpdateArg α)} {n : Int} {w : σ} {r : Heap.Run α σ} (hgiv : GivenOK giv)
    (hs : Heap.sampleFrom (H2.applyAll later) roots giv n w = .ok r) (hreach : Reach (H2.applyAll later) roots (Heap.applyAll [] ops).length)
    {nd : PNode α σ} (hnd : (H2.applyAll later)[(Heap.applyAll [] ops).length]? = some nd) (hg1 : ¬ ∃ v, Given giv nd.str "distance".toList v) :
    ∃ ds, readParam r.gs nd.str "distance".toList = some ds ∧ Repeated r.gs.numSamples c ds :=
  constant_main hk hd hcase hown hinit hk2 hlater hgiv hs hreach hnd hg1

/-- C96 fails for models with further keyword arguments: they are all passed on to the function that computes the distance, which rejects them. However the
redshift, the cosmology and the argument are chosen, the constructor succeeds but no state can be sampled. -/
theorem C96_keyword_counterexample {ops : List (ApiOp α σ)} (hk : KeepsOutputs ([] : Heap α σ) ops) {H2 : Heap α σ} {cls : Name} {attrs : List Name} {a : Args α σ}
    {D : α → α} (hd : given a.distance = false) (hz : given a.redshift = true) (hc : a.cosmology = some D) {k : Name} {val : PyVal α σ} {rest : List (Name × PyVal α σ)}
    (he : a.extra = (k, val) :: rest) (hkr : k ≠ "redshift".toList)
    (hown : a.redshift ≠ .method (Heap.applyAll [] ops).length "redshift".toList)
    (hinit : physicalInit (Heap.applyAll [] ops) cls attrs a = .ok H2) :
    ∃ fid, (Heap.applyAll [] ops).length < fid ∧ fid < H2.length ∧
      ∀ later, KeepsOutputs H2 later → (∀ op ∈ later, ¬ Targets (Heap.applyAll [] ops).length "distance".toList op) →
      ∀ roots giv n w, GivenOK giv → Reach (H2.applyAll later) roots (Heap.applyAll [] ops).length →
        (∀ fnd, (H2.applyAll later)[fid]? = some fnd → ∀ p, ¬ ∃ v, Given giv fnd.str p v) →
        ∀ r, Heap.sampleFrom (H2.applyAll later) roots giv n w ≠ .ok r :=
  keyword_main hk hd hz hc he hkr hown hinit

end LCL.PhysicalInitProps
