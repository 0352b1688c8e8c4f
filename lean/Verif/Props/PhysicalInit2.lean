import Verif.Props.PhysicalInit
import Verif.Spec.FullRun

/-!
# C96: the other parameters of a physical model
-/

namespace LCL.PhysicalInitProps
open LCL LCL.GraphSpec LCL.NodeSpec LCL.ApiSpec LCL.ApiLemmas LCL.PhysicalInit LCL.InitLemmas
variable {α σ : Type}

/-- The four parameters every physical model gets from its constructor, with the argument for each. -/
def fourArgs (a : Args α σ) : List (Name × PyVal α σ) := [("ra".toList, a.ra), ("dec".toList, a.dec), ("redshift".toList, a.redshift), ("t0".toList, a.t0)]

/-- Parameters with different names added one after the other to one node, without an error: each has the source its value denotes. -/
theorem adds_sources (id : NodeId) : ∀ (l : List (Name × PyVal α σ × Option Bool)) (K K' : Heap α σ), id < K.length → (l.map (·.1)).Nodup →
    (∀ q ∈ l, q.2.1 ≠ .method id q.1) → runOps K (l.map fun q => ApiOp.addParameter id q.1 q.2.1 q.2.2 []) = .ok K' →
    K.length ≤ K'.length ∧ ∀ q ∈ l, ∃ B A st st', Means B A id q.1 [] q.2.1 st ∧ sourceOf K' id q.1 = some st' ∧ st'.src = st.src
  | [], K, K', _, _, _, h => by
    injection h with h
    subst h
    exact ⟨Nat.le_refl _, by intro q hq; cases hq⟩
  | (n, v, g) :: l, K, K', hlt, hnd, hm, h => by
    obtain ⟨K1, e1, h⟩ := runOps_cons h
    have l1 : K.length ≤ K1.length := by have := length_op K (.addParameter id n v g []); rw [e1] at this; exact this
    have hlt1 : id < K1.length := Nat.lt_of_lt_of_le hlt l1
    rw [List.map_cons, List.nodup_cons] at hnd
    obtain ⟨a1, a2⟩ := adds_sources id l K1 K' hlt1 hnd.2 (fun q hq => hm q (List.mem_cons_of_mem _ hq)) h
    refine ⟨Nat.le_trans l1 a1, ?_⟩
    intro q hq
    rcases List.mem_cons.1 hq with rfl | hq
    · obtain ⟨st, st', h1, h2, h3⟩ := added hlt (hm _ (by simp)) e1
      refine ⟨K, K1, st, st', h1, ?_, h3⟩
      have := source_later id n (l.map fun q => ApiOp.addParameter id q.1 q.2.1 q.2.2 []) K1 hlt1 (by
        intro op hop
        obtain ⟨q, hq, rfl⟩ := List.mem_map.1 hop
        rintro ⟨-, h⟩
        exact hnd.1 (List.mem_map.2 ⟨q, hq, h⟩))
      rw [runOps_applyAll _ _ _ h] at this
      rw [this]
      exact h2
    · exact a2 q hq

/-- The four parameters of a model that was built. -/
theorem built_sources {H H2 : Heap α σ} {cls : Name} {attrs : List Name} {a : Args α σ} (hself : ∀ q ∈ fourArgs a, q.2 ≠ .method H.length q.1)
    (hinit : physicalInit H cls attrs a = .ok H2) :
    H.length < H2.length ∧ ∀ q ∈ fourArgs a, ∃ B A st st', Means B A H.length q.1 [] q.2 st ∧ sourceOf H2 H.length q.1 = some st' ∧ st'.src = st.src := by
  obtain ⟨H1, h1, h2⟩ := init_split hinit
  unfold headOps at h1
  obtain ⟨K1, e1, h1⟩ := runOps_cons h1
  have l1 : H.length < K1.length := by
    injection e1 with e1 _
    rw [← e1]; simp [Heap.newNode]
  obtain ⟨a1, a2⟩ := adds_sources H.length [("ra".toList, a.ra, some false), ("dec".toList, a.dec, some false), ("redshift".toList, a.redshift, some false), ("t0".toList, a.t0, none)] K1 H1 l1
    (by simp only [List.map_cons, List.map_nil]; decide)
    (by
      intro q hq
      simp only [List.mem_cons, List.not_mem_nil, or_false] at hq
      rcases hq with rfl | rfl | rfl | rfl
      · exact hself ("ra".toList, a.ra) (by simp [fourArgs])
      · exact hself ("dec".toList, a.dec) (by simp [fourArgs])
      · exact hself ("redshift".toList, a.redshift) (by simp [fourArgs])
      · exact hself ("t0".toList, a.t0) (by simp [fourArgs])) h1
  have hl : H.length < H1.length := Nat.lt_of_lt_of_le l1 a1
  refine ⟨Nat.lt_of_lt_of_le hl (by have := length_later (tailOps H.length H1.length a) H1; rw [runOps_applyAll _ _ _ h2] at this; exact this), ?_⟩
  have keep : ∀ n, n ≠ "distance".toList → sourceOf H2 H.length n = sourceOf H1 H.length n := by
    intro n hn
    have := source_later H.length n (tailOps H.length H1.length a) H1 hl (by
      intro op hop ht
      unfold tailOps at hop
      split at hop
      · simp only [List.mem_singleton] at hop; subst hop; exact hn ht.2.symm
      · split at hop
        · simp only [List.mem_cons, List.not_mem_nil, or_false] at hop
          rcases hop with rfl | rfl
          · exact ht
          · exact hn ht.2.symm
        · simp only [List.mem_singleton] at hop; subst hop; exact hn ht.2.symm)
    rw [runOps_applyAll _ _ _ h2] at this
    exact this
  intro q hq
  simp only [fourArgs, List.mem_cons, List.not_mem_nil, or_false] at hq
  rcases hq with rfl | rfl | rfl | rfl
  · rw [keep _ (show "ra".toList ≠ "distance".toList by decide)]; exact a2 ("ra".toList, a.ra, some false) (by simp)
  · rw [keep _ (show "dec".toList ≠ "distance".toList by decide)]; exact a2 ("dec".toList, a.dec, some false) (by simp)
  · rw [keep _ (show "redshift".toList ≠ "distance".toList by decide)]; exact a2 ("redshift".toList, a.redshift, some false) (by simp)
  · rw [keep _ (show "t0".toList ≠ "distance".toList by decide)]; exact a2 ("t0".toList, a.t0, none) (by simp)

/-- C96, the other parameters: a model built, anywhere in a program, with a number (or `None`) for its position, its redshift or its reference time has that value in every
sample, whatever the program did later except setting that parameter. -/
theorem C96_parameters {ops : List (ApiOp α σ)} (hk : KeepsOutputs ([] : Heap α σ) ops) {H2 : Heap α σ} {cls : Name} {attrs : List Name} {a : Args α σ}
    (hself : ∀ q ∈ fourArgs a, q.2 ≠ .method (Heap.applyAll [] ops).length q.1)
    (hinit : physicalInit (Heap.applyAll [] ops) cls attrs a = .ok H2) {p : Name} {c : Val α} (hp : (p, .const c) ∈ fourArgs a)
    {later : List (ApiOp α σ)} (hk2 : KeepsOutputs H2 later) (hlater : ∀ op ∈ later, ¬ Targets (Heap.applyAll [] ops).length p op)
    {roots : List NodeId} {giv : Option (GState.UpdateArg α)} {n : Int} {w : σ} {r : Heap.Run α σ} (hgiv : GivenOK giv)
    (hs : Heap.sampleFrom (H2.applyAll later) roots giv n w = .ok r) (hreach : Reach (H2.applyAll later) roots (Heap.applyAll [] ops).length)
    {nd : PNode α σ} (hnd : (H2.applyAll later)[(Heap.applyAll [] ops).length]? = some nd) (hg1 : ¬ ∃ v, Given giv nd.str p v) :
    ∃ vs, readParam r.gs nd.str p = some vs ∧ Repeated r.gs.numSamples c vs := by
  obtain ⟨b1, b2⟩ := built_sources hself hinit
  obtain ⟨B, A, st, st', hm, hsrc, hsame⟩ := b2 _ hp
  have hst : st'.src = .const c := by rw [hsame]; cases hm; rfl
  have hsrcL := source_later _ _ later H2 b1 hlater
  dsimp only at hsrc
  rw [hsrc, source_get hnd] at hsrcL
  obtain ⟨all, hall, hallEq⟩ := history hk hinit hk2
  have hok := (ApiProps.C59_wellformed all hall).1
  rw [hallEq] at hok
  have q := NodeProps.C12_equations hok hgiv hs _ nd hreach hnd _ _ (Dict.mem_of_get? hsrcL) hg1
  rw [hst] at q
  exact q

/-- C96, the model can be simulated: a node built by the constructor of physical models is a well-formed graph and has every parameter `simulate_lightcurves` reads (the
hypotheses of C119 and C126). -/
theorem C96_physical {ops : List (ApiOp ℝ σ)} (hk : KeepsOutputs ([] : Heap ℝ σ) ops) {H2 : Heap ℝ σ} {cls : Name} {attrs : List Name} {a : Args ℝ σ}
    (hself : ∀ q ∈ fourArgs a, q.2 ≠ .method (Heap.applyAll [] ops).length q.1) (hinit : physicalInit (Heap.applyAll [] ops) cls attrs a = .ok H2) :
    GraphOK H2 ∧ FullRunSpec.Physical H2 (Heap.applyAll [] ops).length := by
  obtain ⟨b1, b2⟩ := built_sources hself hinit
  obtain ⟨all, hall, hallEq⟩ := history (later := []) hk hinit trivial
  have hok := (ApiProps.C59_wellformed all hall).1
  rw [hallEq] at hok
  refine ⟨hok, H2[(Heap.applyAll [] ops).length], List.getElem?_eq_getElem b1, ?_⟩
  intro p hp
  have : ∃ v, (p, v) ∈ fourArgs a := by
    simp only [List.mem_cons, List.not_mem_nil, or_false] at hp
    rcases hp with rfl | rfl | rfl | rfl
    exacts [⟨_, by simp [fourArgs]; rfl⟩, ⟨_, by simp [fourArgs]; rfl⟩, ⟨_, by simp [fourArgs]; rfl⟩, ⟨_, by simp [fourArgs]; rfl⟩]
  obtain ⟨v, hv⟩ := this
  obtain ⟨B, A, st, st', -, hsrc, -⟩ := b2 _ hv
  rw [source_get (List.getElem?_eq_getElem b1)] at hsrc
  exact ⟨st', Dict.mem_of_get? hsrc⟩

/-- C96, hosts: a supernova host that was built with a number as its host mass has that host mass in every sample (with a cosmology and no distance no sample can be taken at
all, see `C96_host_counterexample`). -/
theorem C96_host {ops : List (ApiOp α σ)} (hk : KeepsOutputs ([] : Heap α σ) ops) {H3 : Heap α σ} {attrs : List Name} {a : Args α σ} {c : Val α}
    (hself : ∀ q ∈ fourArgs a, q.2 ≠ .method (Heap.applyAll [] ops).length q.1) (hinit : sniaHostInit (Heap.applyAll [] ops) attrs a (.const c) = .ok H3)
    {roots : List NodeId} {giv : Option (GState.UpdateArg α)} {n : Int} {w : σ} {r : Heap.Run α σ} (hgiv : GivenOK giv)
    (hs : Heap.sampleFrom H3 roots giv n w = .ok r) (hreach : Reach H3 roots (Heap.applyAll [] ops).length)
    {nd : PNode α σ} (hnd : H3[(Heap.applyAll [] ops).length]? = some nd) (hg1 : ¬ ∃ v, Given giv nd.str "hostmass".toList v) :
    ∃ vs, readParam r.gs nd.str "hostmass".toList = some vs ∧ Repeated r.gs.numSamples c vs := by
  unfold sniaHostInit at hinit
  cases h1 : physicalInit (Heap.applyAll [] ops) "SNIaHost".toList attrs { a with extra := ("hostmass".toList, .const c) :: a.extra } with
  | error e => rw [h1] at hinit; cases hinit
  | ok H2 =>
    rw [h1] at hinit
    have b1 := (built_sources (a := { a with extra := ("hostmass".toList, .const c) :: a.extra }) hself h1).1
    obtain ⟨K, e1, h⟩ := runOps_cons hinit
    injection h with h
    subst h
    obtain ⟨d1, d2⟩ := ApiProps.C59_add_parameter H2 _ _ (List.getElem?_eq_getElem b1) "hostmass".toList (.const .none) none [("hostmass".toList, .const c)]
      (by
        intro u hu
        cases hu with
        | explicit h => exact absurd rfl h
        | keyword h => rw [List.mem_singleton.1 (Dict.mem_of_get? h) |> fun e => (Prod.mk.inj e).2]; intro h; cases h
        | absent => intro h; cases h) K none e1
    by_cases hp : HasParam H2 (Heap.applyAll [] ops).length "hostmass".toList ∨ "hostmass".toList ∈ (H2[(Heap.applyAll [] ops).length]).attrs
    · exact absurd (d1 hp).1 (by simp)
    · obtain ⟨u, st, hu, hm, st', g1, g2, _⟩ := (d2 (fun h => hp (Or.inl h)) (fun h => hp (Or.inr h))).2.2 rfl
      have hu' : u = .const c := by
        cases hu with
        | explicit h => exact absurd rfl h
        | keyword h => exact (Prod.mk.inj (List.mem_singleton.1 (Dict.mem_of_get? h))).2
        | absent h => exact absurd h (by intro h; rw [Dict.get?_cons, if_pos rfl] at h; cases h)
      subst hu'
      have hst : st'.src = .const c := by rw [g2]; cases hm; rfl
      rw [source_get hnd] at g1
      obtain ⟨all, hall, hallEq⟩ := history (later := [.addParameter (Heap.applyAll [] ops).length "hostmass".toList (.const .none) none [("hostmass".toList, .const c)]]) hk h1
        ⟨trivial, trivial⟩
      have hok := (ApiProps.C59_wellformed all hall).1
      have hK : H2.applyAll [.addParameter (Heap.applyAll [] ops).length "hostmass".toList (.const .none) none [("hostmass".toList, .const c)]] = K := by
        show (H2.apply _).1 = K
        rw [e1]
      rw [hallEq, hK] at hok
      have q := NodeProps.C12_equations hok hgiv hs _ nd hreach hnd _ _ (Dict.mem_of_get? g1) hg1
      rw [hst] at q
      exact q

/-- A host without a cosmology, at a redshift drawn by a sampler: it can be built and sampled, and its right ascension and host mass are those given. -/
def hostArgs : Args Nat Nat := { demoArgs [] with cosmology := none, ra := .const (.scalar 5) }

example : ∃ H3 r, KeepsOutputs ([] : Heap Nat Nat) [sampler] ∧ (∀ q ∈ fourArgs hostArgs, q.2 ≠ .method (Heap.applyAll ([] : Heap Nat Nat) [sampler]).length q.1) ∧
    sniaHostInit (Heap.applyAll [] [sampler]) [] hostArgs (.const (.scalar 11)) = .ok H3 ∧ Heap.sampleFrom H3 [1] none 2 7 = .ok r ∧
    readParam r.gs "model".toList "hostmass".toList = some (.arr [.scalar 11, .scalar 11]) ∧ readParam r.gs "model".toList "ra".toList = some (.arr [.scalar 5, .scalar 5]) := by
  refine ⟨_, _, ⟨trivial, trivial⟩, ?_, rfl, rfl, rfl, rfl⟩
  intro q hq h
  simp only [fourArgs, hostArgs, demoArgs, List.mem_cons, List.not_mem_nil, or_false] at hq
  rcases hq with rfl | rfl | rfl | rfl <;> cases h

end LCL.PhysicalInitProps
