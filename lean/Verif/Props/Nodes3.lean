import Verif.Lemmas.Live
import Verif.Props.Nodes1

/-!
# Properties C12, C14: sampling terminates, and succeeds on complete graphs
-/

namespace LCL.NodeProps
open LCL LCL.GraphSpec LCL.GraphLemmas LCL.NodeSpec LCL.NodeLemmas
variable {α σ : Type}

theorem roots_live {H : Heap α σ} (hG : GraphOK H) {roots : List NodeId} {n : Nat}
    (hR : Runnable H roots n) (w0 : σ) :
    ∀ (l : List NodeId) (r : Run α σ), (∀ a ∈ l, a ∈ roots) → Inv H w0 (Reach H roots) r →
      Far H 0 r → r.gs.numSamples = n → FixedStored r →
      (∀ m j, r.seen.get? m = some j → NodeDone H r j) →
      ∃ r', Heap.sampleRoots H l r = .ok r' := by
  obtain ⟨rank, hrank⟩ := hR.acyclic
  have hRc : ∀ id nd, Reach H roots id → H[id]? = some nd →
      ∀ q ∈ nd.setters, ∀ d, q.2.src.dep = some d → Reach H roots d := by
    intro id nd hr hid q hq d hd
    refine Reach.step hr ⟨nd, q.1, q.2, hid, hq, ?_⟩
    cases hs : q.2.src with
    | modelParam d' q' => rw [hs] at hd; cases hd; exact Or.inl ⟨q', rfl⟩
    | funcNode d' q' => rw [hs] at hd; cases hd; exact Or.inr ⟨q', rfl⟩
    | undefined => rw [hs] at hd; cases hd
    | const v => rw [hs] at hd; cases hd
    | computeOut o => rw [hs] at hd; cases hd
  intro l
  induction l with
  | nil => intro r _ _ _ _ _ _; exact ⟨r, rfl⟩
  | cons a l ih =>
    intro r hl hinv hfar hnum hfs hdone
    have ha : Reach H roots a := Reach.root (hl a (by simp))
    obtain ⟨r1, hr1⟩ := sampleNode_live hG hR w0 rank hrank (rank a + H.length + 2) a r ha
      (by omega) hinv hnum hfs (fun m j h => Or.inl (hdone m j h))
    have hr1' : Heap.sampleNode H (H.length + 1) a r = .ok r1 := by
      rw [← hr1]
      exact sampleNode_fuel _ _ a r hfar.1 (by omega) (by omega)
    obtain ⟨b1, b2, _⟩ := sampleNode_spec hG hRc _ a r r1 ha hinv hr1'
    obtain ⟨r2, hr2⟩ := ih r1 (fun x hx => hl x (List.mem_cons_of_mem _ hx)) b1
      (sampleNode_far _ 0 a r r1 hfar hr1') (by rw [b2.weak.num]; exact hnum) (hfs.mono b2.weak)
      (by
        intro m j hm
        cases hs : r.seen.get? m with
        | none => exact b2.fin m j hm hs
        | some j' =>
          have := b2.weak.seen m j' hs
          rw [hm] at this; cases this
          exact (hdone m j hs).mono b2.weak)
    refine ⟨r2, ?_⟩
    unfold Heap.sampleRoots at hr2 ⊢
    rw [List.foldlM_cons, hr1']
    exact hr2

/-- C14 (sampling succeeds). On every graph that has everything it needs (no cyclic dependency,
distinct dot-free names, defined sources, existing link targets, functions returning one storable
value per output), `sample_parameters` returns, provided `num_samples` and `given_args` are
themselves accepted. -/
theorem C14_succeeds {H : Heap α σ} (hG : GraphOK H) {roots : List NodeId} {n : Nat}
    (hR : Runnable H roots n) {given : Option (GState.UpdateArg α)} (hg : GivenOK given) (w : σ)
    {s0 s1 : GState α} (h0 : GState.init n = .ok s0) (h1 : Heap.applyGiven s0 given = .ok s1) :
    ∃ r, Heap.sampleFrom H roots given n w = .ok r := by
  obtain ⟨a1, a2, a3, a4, a5⟩ := start_state hg h0 h1
  have hinv : Inv H w (Reach H roots) ({ gs := s1, world := w, seen := [], calls := [] } : Run α σ) := by
    refine ⟨a1, ?_, ?_, ?_, ?_, ?_, ?_⟩
    · intro m i hh; cases hh
    · intro m i hh; cases hh
    · intro m p v hl; exact Or.inl (a5 m p v hl)
    · intro c hc; cases hc
    · simp
    · exact Thread.nil w
  obtain ⟨r, hr⟩ := roots_live hG hR w roots _ (fun a h => h) hinv
    ⟨⟨by simp, by intro m i hm; cases hm⟩, by simp⟩ (by simp only; omega)
    (by
      intro m p hp
      obtain ⟨v, hv⟩ := (a3 m p).1 hp
      obtain ⟨u, _, hu⟩ := a4 m p v hv
      exact ⟨u, hu⟩)
    (by intro m j hm; cases hm)
  refine ⟨r, ?_⟩
  unfold Heap.sampleFrom
  simp only [bind, Except.bind, h0, h1]
  exact hr

/-- C12 (the recursion bound is immaterial). The model bounds the recursion depth by the number of
nodes plus one; every larger bound gives the same result, so no behaviour is cut off by it. -/
theorem C12_depth_bound_immaterial (H : Heap α σ) (depth : Nat) (hd : H.length < depth)
    (id : NodeId) (s : GState α) (w : σ) :
    Heap.sampleNode H depth id { gs := s, world := w, seen := [], calls := [] } =
      Heap.sampleNode H (H.length + 1) id { gs := s, world := w, seen := [], calls := [] } :=
  sampleNode_fuel _ _ id _ ⟨by simp, by intro m i hm; cases hm⟩
    (Nat.lt_of_le_of_lt (Nat.sub_le _ _) hd) (Nat.lt_of_le_of_lt (Nat.sub_le _ _) (Nat.lt_succ_self _))

end LCL.NodeProps
