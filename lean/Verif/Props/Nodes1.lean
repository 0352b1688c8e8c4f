import Verif.Lemmas.Nodes

/-!
# Properties C12–C15: sampling a parameter graph
-/

namespace LCL.NodeProps
open LCL LCL.GraphSpec LCL.GraphLemmas LCL.NodeSpec LCL.NodeLemmas
variable {α σ : Type}

/-- The state handed to the traversal: exactly the given parameters, all fixed. -/
theorem start_state {given : Option (GState.UpdateArg α)} (hg : GivenOK given) {n : Int}
    {s1 : GState α} {s0 : GState α} (h0 : GState.init n = .ok s0)
    (h1 : Heap.applyGiven s0 given = .ok s1) :
    WF s1 ∧ (s1.numSamples : Int) = n ∧
    (∀ m p, p ∈ fixedOf s1 m ↔ ∃ v, Given given m p v) ∧
    (∀ m p v, Given given m p v → ∃ w, storedAs s1.numSamples v w ∧ look s1 m p = some w) ∧
    (∀ m p v, look s1 m p = some v → p ∈ fixedOf s1 m) := by
  have hw0 := init_wf h0
  have hf0 : ∀ m, fixedOf s0 m = [] := by
    intro m
    unfold GState.init at h0; split at h0
    · cases h0
    · cases h0; rfl
  have key : ∀ (d : Dict Name (Dict Name (Val α))), d.keys.Nodup → (∀ q ∈ d, q.2.keys.Nodup) →
      (match s0.setNested true d with | (s, none) => .ok s | (_, some e) => .error e : Except Err (GState α)) = .ok s1 →
      (∀ m p v, Given given m p v ↔ ∃ dd, d.get? m = some dd ∧ dd.get? p = some v) →
      WF s1 ∧ (s1.numSamples : Int) = n ∧
      (∀ m p, p ∈ fixedOf s1 m ↔ ∃ v, Given given m p v) ∧
      (∀ m p v, Given given m p v → ∃ w, storedAs s1.numSamples v w ∧ look s1 m p = some w) ∧
      (∀ m p v, look s1 m p = some v → p ∈ fixedOf s1 m) := by
    intro d hk hv hs hgiven
    have hwf := setNested_wf d s0 hw0 true
    have heff := setNested_effect d s0 hw0 true hk hv
    rcases hr : s0.setNested true d with ⟨s', e⟩
    rw [hr] at hs hwf heff
    cases e with
    | some e => cases hs
    | none =>
      cases hs
      have heff := heff rfl
      simp only at hwf heff
      have hl2 : ∀ m p v, Given given m p v ↔ look2 d m p = some v := by
        intro m p v
        rw [hgiven]
        unfold look2
        cases d.get? m <;> simp
      have hfix : ∀ m p, p ∈ fixedOf s1 m ↔ ∃ v, Given given m p v := by
        intro m p
        obtain ⟨_, _, e3⟩ := heff m p
        rw [e3, hf0]
        simp only [hl2, ← Option.isSome_iff_exists]
        constructor
        · rintro (h | ⟨_, h⟩)
          · simp at h
          · exact h
        · intro h; exact Or.inr ⟨trivial, h⟩
      refine ⟨hwf.1, by rw [hwf.2]; exact init_numSamples h0, hfix, ?_, ?_⟩
      · intro m p v hgv
        rw [hl2] at hgv
        obtain ⟨e1, e2, _⟩ := heff m p
        obtain ⟨w, hwn⟩ := e2 v hgv (by rw [hf0]; simp)
        refine ⟨w, (normalise_ok_iff _ _ _).1 (by rw [hwf.2]; exact hwn), ?_⟩
        rw [e1, hf0]; simp [hgv, hwn, Except.toOption]
      · intro m p v hlk
        obtain ⟨e1, e2, _⟩ := heff m p
        rw [hfix]
        cases hgv : look2 d m p with
        | some u => exact ⟨u, (hl2 m p u).2 hgv⟩
        | none =>
          rw [e1, hf0] at hlk
          simp [hgv, init_look h0] at hlk
  cases given with
  | none =>
    cases h1
    refine ⟨hw0, init_numSamples h0, ?_, ?_, ?_⟩
    · intro m p; rw [hf0]; simp [Given]
    · intro m p v h; exact absurd h (by simp [Given])
    · intro m p v h; rw [init_look h0] at h; cases h
  | some g =>
    cases g with
    | nested d => exact key d hg.1 hg.2 h1 (fun m p v => Iff.rfl)
    | graph gs =>
      unfold Heap.applyGiven GState.update at h1
      simp only at h1
      split at h1
      · rename_i hh
        split at hh
        · cases hh
        · rename_i heq
          exact key gs.states hg.1 hg.2 (by rw [hh]; exact h1) (fun m p v => Iff.rfl)
      · cases h1

/-- Everything the sampling theorems use, in one place. -/
theorem sampleFrom_all {H : Heap α σ} (hG : GraphOK H) {roots : List NodeId}
    {given : Option (GState.UpdateArg α)} (hg : GivenOK given) {n : Int} {w : σ} {r : Run α σ}
    (h : Heap.sampleFrom H roots given n w = .ok r) :
    Inv H w (Reach H roots) r ∧ (r.gs.numSamples : Int) = n ∧
    (∀ id, Reach H roots id → ∃ nd, H[id]? = some nd ∧ r.seen.get? nd.str = some id ∧ NodeDone H r id) ∧
    (∀ m p, p ∈ fixedOf r.gs m ↔ ∃ v, Given given m p v) ∧
    (∀ m p v, Given given m p v → ∃ w, storedAs r.gs.numSamples v w ∧ look r.gs m p = some w) := by
  unfold Heap.sampleFrom at h
  simp only [bind, Except.bind] at h
  cases h0 : (GState.init n : Except Err (GState α)) with
  | error e => rw [h0] at h; cases h
  | ok s0 =>
    rw [h0] at h
    simp only at h
    cases h1 : Heap.applyGiven s0 given with
    | error e => rw [h1] at h; cases h
    | ok s1 =>
      rw [h1] at h
      obtain ⟨a1, a2, a3, a4, a5⟩ := start_state hg h0 h1
      have hinv : Inv H w (Reach H roots) ({ gs := s1, world := w, seen := [], calls := [] } : Run α σ) := by
        refine ⟨a1, ?_, ?_, ?_, ?_, ?_, ?_⟩
        · intro m i hh; cases hh
        · intro m i hh; cases hh
        · intro m p v hl; exact Or.inl (a5 m p v hl)
        · intro c hc; cases hc
        · simp
        · exact Thread.nil w
      have hRc : ∀ id nd, Reach H roots id → H[id]? = some nd →
          ∀ q ∈ nd.setters, ∀ d, q.2.src.dep = some d → Reach H roots d := by
        intro id nd hr hid q hq d hd
        refine Reach.step hr ⟨nd, q.1, q.2, hid, hq, ?_⟩
        cases hs : q.2.src with
        | modelParam d' q' => rw [hs] at hd; cases hd; exact Or.inl ⟨q', rfl⟩
        | funcNode d' q' => rw [hs] at hd; cases hd; exact Or.inr ⟨q', rfl⟩
        | undefined => rw [hs] at hd; cases hd
        | const v => rw [hs] at hd; cases hd
        | computeOut o => rw [hs] at hd; cases hd
      obtain ⟨b1, b2, b3⟩ := sampleRoots_spec hG hRc roots _ r (fun a ha => Reach.root ha) hinv h
      have hdone : ∀ m j, r.seen.get? m = some j → NodeDone H r j :=
        fun m j hm => b2.fin m j hm rfl
      refine ⟨b1, ?_, ?_, ?_, ?_⟩
      · rw [b2.weak.num]; exact a2
      · intro id hr
        induction hr with
        | root ha =>
          obtain ⟨nd, e1, e2⟩ := b3 _ ha
          exact ⟨nd, e1, e2, hdone _ _ e2⟩
        | @step a b _ hreads ih =>
          obtain ⟨nd, p, st, f1, f2, f3⟩ := hreads
          obtain ⟨nd', e1, e2, nd'', e3, _, e4, _⟩ := ih
          rw [f1] at e3; cases e3
          have hdep : st.src.dep = some b := by
            rcases f3 with ⟨q, f3⟩ | ⟨q, f3⟩ <;> rw [f3] <;> rfl
          obtain ⟨dn, g1, g2⟩ := e4 (p, st) f2 b hdep
          exact ⟨dn, g1, g2, hdone _ _ g2⟩
      · intro m p; rw [b2.weak.fixed]; exact a3 m p
      · intro m p v hgv
        obtain ⟨u, e1, e2⟩ := a4 m p v hgv
        exact ⟨u, by rw [b2.weak.num]; exact e1, b2.weak.look _ _ _ e2⟩

/-- C12 (equations). After a successful `sample_parameters`, every parameter of every node
reachable from the sampled roots that the caller did not specify satisfies its defining equation
in the *final* state: constants are repeated, linked parameters equal their source, and outputs
are what the node's function returned for the sampled argument values. -/
theorem C12_equations {H : Heap α σ} (hG : GraphOK H) {roots : List NodeId}
    {given : Option (GState.UpdateArg α)} (hg : GivenOK given) {n : Int} {w : σ} {r : Run α σ}
    (h : Heap.sampleFrom H roots given n w = .ok r) :
    ∀ id nd, Reach H roots id → H[id]? = some nd → ∀ p st, (p, st) ∈ nd.setters →
      (¬ ∃ v, Given given nd.str p v) → Equation H r.gs r.calls id nd p st.src := by
  obtain ⟨hinv, _, hall, hfix, _⟩ := sampleFrom_all hG hg h
  intro id nd hr hid p st hm hng
  obtain ⟨nd', e1, _, nd'', e2, e3, _⟩ := hall id hr
  rw [hid] at e2; cases e2
  have hread : ∀ a b, readParam r.gs a b = look r.gs a b := read_eq_look _ hinv.wf.toShape
  rcases e3 (p, st) hm with e | e
  · exact absurd ((hfix _ _).1 e) hng
  · simp only at e
    cases hs : st.src with
    | undefined => rw [hs] at e; exact e
    | const v => rw [hs] at e; obtain ⟨u, f1, f2⟩ := e; exact ⟨u, by rw [hread]; exact f1, f2⟩
    | modelParam d q =>
      rw [hs] at e; obtain ⟨dn, u, f0, f1, f2⟩ := e
      exact ⟨dn, u, f0, by rw [hread]; exact f1, by rw [hread]; exact f2⟩
    | funcNode d q =>
      rw [hs] at e; obtain ⟨dn, u, f0, f1, f2⟩ := e
      exact ⟨dn, u, f0, by rw [hread]; exact f1, by rw [hread]; exact f2⟩
    | computeOut o =>
      rw [hs] at e; obtain ⟨args, res, u, w', f0, ⟨f1, f1'⟩, f2, f3, f4⟩ := e
      refine ⟨args, res, u, w', f0, ⟨?_, f1'⟩, f2, f3, by rw [hread]; exact f4⟩
      intro a ha
      obtain ⟨v, g1, g2⟩ := f1 a ha
      exact ⟨v, by rw [hread]; exact g1, g2⟩

/-- C12 (once, in sequence). In one `sample_parameters` call, exactly the reachable function nodes
are computed, each exactly once, and the calls thread the random state in order. -/
theorem C12_each_once {H : Heap α σ} (hG : GraphOK H) {roots : List NodeId}
    {given : Option (GState.UpdateArg α)} (hg : GivenOK given) {n : Int} {w : σ} {r : Run α σ}
    (h : Heap.sampleFrom H roots given n w = .ok r) :
    (r.calls.map (·.1)).Nodup ∧
    (∀ id, id ∈ r.calls.map (·.1) ↔ Reach H roots id ∧ ∃ nd, H[id]? = some nd ∧ nd.outputs ≠ []) ∧
    Thread H r.gs.numSamples w r.calls r.world := by
  obtain ⟨hinv, _, hall, _, _⟩ := sampleFrom_all hG hg h
  refine ⟨hinv.callsNodup, ?_, hinv.thread⟩
  intro id
  constructor
  · intro hm
    obtain ⟨c, hc, rfl⟩ := List.mem_map.1 hm
    obtain ⟨nd, e1, e2, e3⟩ := hinv.callsOK c hc
    exact ⟨hinv.reach _ _ e2, nd, e1, e3⟩
  · rintro ⟨hr, nd, hid, hne⟩
    obtain ⟨_, _, _, nd'', e2, _, _, e5, _⟩ := hall id hr
    rw [hid] at e2; cases e2
    exact e5 hne

/-- C13. Every parameter in `given_args` has the given value in the sampled state (expanded to
`num_samples` rows if it is a scalar), whatever the graph says about it. (That everything derived
from it uses this value is `C12_equations`: those equations are about the same final state.) -/
theorem C13_given_wins {H : Heap α σ} (hG : GraphOK H) {roots : List NodeId}
    {given : Option (GState.UpdateArg α)} (hg : GivenOK given) {n : Int} {w : σ} {r : Run α σ}
    (h : Heap.sampleFrom H roots given n w = .ok r) (m p : Name) (v : Val α)
    (hv : Given given m p v) :
    ∃ u, storedAs r.gs.numSamples v u ∧ readParam r.gs m p = some u := by
  obtain ⟨hinv, _, _, _, hgv⟩ := sampleFrom_all hG hg h
  obtain ⟨u, e1, e2⟩ := hgv m p v hv
  exact ⟨u, e1, by rw [read_eq_look _ hinv.wf.toShape]; exact e2⟩

/-- C14. The sampled state has `num_samples = n`; every declared parameter of every reachable node
is stored (with `n` rows for `n ≠ 1`), and whatever is stored is a declared parameter of a
reachable node or was given. -/
theorem C14_complete {H : Heap α σ} (hG : GraphOK H) {roots : List NodeId}
    {given : Option (GState.UpdateArg α)} (hg : GivenOK given) {n : Int} {w : σ} {r : Run α σ}
    (h : Heap.sampleFrom H roots given n w = .ok r) :
    (r.gs.numSamples : Int) = n ∧
    (∀ id nd, Reach H roots id → H[id]? = some nd → ∀ q ∈ nd.setters, ∃ v,
      readParam r.gs nd.str q.1 = some v ∧ (n ≠ 1 → ∃ rows, v = .arr rows ∧ (rows.length : Int) = n)) ∧
    (∀ m p v, readParam r.gs m p = some v → (∃ u, Given given m p u) ∨
      ∃ id nd, Reach H roots id ∧ H[id]? = some nd ∧ nd.str = m ∧ ∃ st, (p, st) ∈ nd.setters) := by
  obtain ⟨hinv, hnum, hall, hfix, hgv⟩ := sampleFrom_all hG hg h
  have hread : ∀ a b, readParam r.gs a b = look r.gs a b := read_eq_look _ hinv.wf.toShape
  refine ⟨hnum, ?_, ?_⟩
  · intro id nd hr hid q hq
    obtain ⟨_, _, _, nd'', e2, e3, _, _, e6⟩ := hall id hr
    rw [hid] at e2; cases e2
    have hex : ∃ v, look r.gs nd.str q.1 = some v := by
      rcases e3 q hq with e | e
      · obtain ⟨v, hv⟩ := (hfix _ _).1 e
        obtain ⟨u, _, e2⟩ := hgv _ _ _ hv
        exact ⟨u, e2⟩
      · cases hs : q.2.src with
        | undefined => exact absurd hs (e6 q hq)
        | const v => rw [hs] at e; obtain ⟨u, f1, _⟩ := e; exact ⟨u, f1⟩
        | modelParam d q' => rw [hs] at e; obtain ⟨_, u, _, _, f2⟩ := e; exact ⟨u, f2⟩
        | funcNode d q' => rw [hs] at e; obtain ⟨_, u, _, _, f2⟩ := e; exact ⟨u, f2⟩
        | computeOut o => rw [hs] at e; obtain ⟨_, _, _, u, _, _, _, _, f2⟩ := e; exact ⟨u, f2⟩
    obtain ⟨v, hv⟩ := hex
    refine ⟨v, by rw [hread]; exact hv, ?_⟩
    intro hn
    obtain ⟨l, e1, e2⟩ := hinv.wf.rows (by omega) _ _ _ hv
    exact ⟨l, e1, by omega⟩
  · intro m p v hv
    rw [hread] at hv
    rcases hinv.stored m p v hv with e | ⟨id, nd, e1, e2, e3⟩
    · exact Or.inl ((hfix _ _).1 e)
    · right
      obtain ⟨nd', f1, f2⟩ := hinv.seenOK m id e1
      rw [e2] at f1; cases f1
      obtain ⟨q, hq, rfl⟩ := List.mem_map.1 e3
      exact ⟨id, nd, hinv.reach _ _ e1, e2, f2, q.2, hq⟩

/-- C15. If two different nodes reachable from the roots have the same name, sampling raises. -/
theorem C15_duplicate_names_raise {H : Heap α σ} (hG : GraphOK H) {roots : List NodeId}
    {given : Option (GState.UpdateArg α)} (hg : GivenOK given) {n : Int} {w : σ}
    (a b : NodeId) (na nb : PNode α σ) (ha : Reach H roots a) (hb : Reach H roots b)
    (hna : H[a]? = some na) (hnb : H[b]? = some nb) (hab : a ≠ b) (hs : na.str = nb.str) :
    ∃ e, Heap.sampleFrom H roots given n w = .error e := by
  cases h : Heap.sampleFrom H roots given n w with
  | error e => exact ⟨e, rfl⟩
  | ok r =>
    exfalso
    obtain ⟨_, _, hall, _, _⟩ := sampleFrom_all hG hg h
    obtain ⟨na', e1, e2, _⟩ := hall a ha
    obtain ⟨nb', f1, f2, _⟩ := hall b hb
    rw [hna] at e1; cases e1
    rw [hnb] at f1; cases f1
    rw [hs, f2] at e2
    exact hab (Option.some.inj e2).symm

end LCL.NodeProps
