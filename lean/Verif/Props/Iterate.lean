import Verif.Spec.Iterate
import Verif.Lemmas.GraphState2

/-!
# C143 — stepping through the samples of a state
-/

namespace LCL.IterateProps
open LCL LCL.GraphSpec LCL.GraphLemmas LCL.Iterate LCL.IterateSpec
variable {α : Type}

theorem isSample_of {s : GState α} (hs : Shape s) {k : Nat} (hk : k < s.numSamples) : IsSample s k (sampleOf s k) := by
  refine ⟨rfl, fun n p => ?_⟩
  rw [read_eq_look _ (sampleOf_shape s hs k), look_sampleOf, read_eq_look s hs]
  by_cases h1 : s.numSamples = 1
  · rw [if_pos h1]
    cases look s n p <;> simp [h1]
  · rw [if_neg h1]
    cases hl : look s n p with
    | none => rfl
    | some v =>
      obtain ⟨l, rfl, hlen⟩ := hs.rows h1 n p v hl
      simp only [Option.bind_some, Option.map_some, if_neg h1, rowAt, rowD]
      rw [List.getElem?_eq_getElem (by omega)]
      rfl

theorem advance_eq {s : GState α} (hs : Shape s) (idx : Nat) : advance s idx = if idx < s.numSamples then (idx + 1, .sample (sampleOf s idx)) else (idx, .stopIteration) := by
  unfold advance
  split
  · rename_i h
    rw [extractSample_ok s hs idx h]
  · rfl

/-- What is known after a history. -/
theorem run_spec : ∀ (acts : List (Act α)) (w : World α), WF w.state → (∀ j ∈ w.gens, j ≤ w.state.numSamples) →
    (run w acts).state = GraphSpec.run w.state (writes acts) ∧ (run w acts).gens.length = w.gens.length + made acts ∧
    ∀ i, i < w.gens.length + made acts → (run w acts).gens[i]? = some (min w.state.numSamples (w.gens[i]?.getD 0 + advanced i w.gens.length acts))
  | [], w, _, hg => by
    refine ⟨rfl, rfl, fun i hi => ?_⟩
    have hi : i < w.gens.length := hi
    show w.gens[i]? = some (min w.state.numSamples (w.gens[i]?.getD 0 + 0))
    rw [List.getElem?_eq_getElem hi, Option.getD_some, Nat.add_zero, Nat.min_eq_right (hg _ (List.getElem_mem hi))]
  | a :: acts, w, hw, hg => by
    show (run (step w a).1 acts).state = _ ∧ (run (step w a).1 acts).gens.length = _ ∧ ∀ i, _ → (run (step w a).1 acts).gens[i]? = _
    have hsamples : ∀ op : Op α, WF (GraphSpec.step w.state op) ∧ (GraphSpec.step w.state op).numSamples = w.state.numSamples := fun op => step_wf w.state hw op
    cases a with
    | set n p v f =>
      have e : (step w (.set n p v f)).1 = { w with state := GraphSpec.step w.state (.set n p v f) } := by
        unfold Iterate.step GraphSpec.step
        dsimp only
        rcases h : w.state.set n p v f with ⟨s, o⟩
        cases o <;> rfl
      obtain ⟨w1, w2⟩ := hsamples (.set n p v f)
      rw [e]
      have := run_spec acts { w with state := GraphSpec.step w.state (.set n p v f) } w1 (by rw [w2]; exact hg)
      dsimp only at this
      rw [w2] at this
      exact this
    | update u f =>
      have e : (step w (.update u f)).1 = { w with state := GraphSpec.step w.state (.update u f) } := by
        unfold Iterate.step GraphSpec.step
        dsimp only
        rcases h : w.state.update u f with ⟨s, o⟩
        cases o <;> rfl
      obtain ⟨w1, w2⟩ := hsamples (.update u f)
      rw [e]
      have := run_spec acts { w with state := GraphSpec.step w.state (.update u f) } w1 (by rw [w2]; exact hg)
      dsimp only at this
      rw [w2] at this
      exact this
    | iter =>
      obtain ⟨h1, h2, h3⟩ := run_spec acts { w with gens := w.gens ++ [0] } hw (by
        intro j hj
        rcases List.mem_append.1 hj with h | h
        · exact hg j h
        · rw [List.mem_singleton.1 h]; exact Nat.zero_le _)
      dsimp only at h1 h2 h3
      rw [List.length_append, List.length_singleton] at h2 h3
      refine ⟨h1, by show _ = w.gens.length + (made acts + 1); rw [← Nat.add_assoc, Nat.add_right_comm]; exact h2, fun i hi => ?_⟩
      have hi : i < w.gens.length + (made acts + 1) := hi
      refine (h3 i (by omega)).trans ?_
      show _ = some (min w.state.numSamples (w.gens[i]?.getD 0 + advanced i (w.gens.length + 1) acts))
      congr 3
      rcases Nat.lt_trichotomy i w.gens.length with h | h | h
      · rw [List.getElem?_append_left h]
      · subst h
        simp
      · rw [List.getElem?_append_right (by omega), List.getElem?_eq_none (by simp; omega), List.getElem?_eq_none (by omega)]
    | next => exact run_spec acts w hw hg
    | advance i0 =>
      have hset : (step w (.advance i0)).1 = match w.gens[i0]? with
          | none => w
          | some idx => { w with gens := w.gens.set i0 (min w.state.numSamples (idx + 1)) } := by
        unfold Iterate.step
        dsimp only
        cases hi : w.gens[i0]? with
        | none => rfl
        | some idx =>
          dsimp only
          rw [advance_eq hw.toShape]
          have hle := hg idx (List.mem_of_getElem? hi)
          by_cases hlt : idx < w.state.numSamples
          · rw [if_pos hlt]
            dsimp only
            rw [Nat.min_eq_right (by omega)]
          · rw [if_neg hlt]
            dsimp only
            rw [Nat.min_eq_left (by omega), show w.state.numSamples = idx by omega]
      rw [hset]
      cases hi : w.gens[i0]? with
      | none =>
        dsimp only
        obtain ⟨h1, h2, h3⟩ := run_spec acts w hw hg
        refine ⟨h1, h2, fun i hi' => (h3 i hi').trans ?_⟩
        have hge := List.getElem?_eq_none_iff.1 hi
        show _ = some (min w.state.numSamples (w.gens[i]?.getD 0 + ((if i0 = i ∧ i < w.gens.length then 1 else 0) + advanced i w.gens.length acts)))
        rw [if_neg (by rintro ⟨rfl, h⟩; omega), Nat.zero_add]
      | some idx =>
        dsimp only
        have hlt : i0 < w.gens.length := (List.getElem?_eq_some_iff.1 hi).1
        obtain ⟨h1, h2, h3⟩ := run_spec acts { w with gens := w.gens.set i0 (min w.state.numSamples (idx + 1)) } hw (by
          intro j hj
          rcases List.mem_or_eq_of_mem_set hj with h | h
          · exact hg j h
          · rw [h]; exact Nat.min_le_left _ _)
        dsimp only at h1 h2 h3
        rw [List.length_set] at h2 h3
        refine ⟨h1, h2, fun i hi' => (h3 i hi').trans ?_⟩
        show _ = some (min w.state.numSamples (w.gens[i]?.getD 0 + ((if i0 = i ∧ i < w.gens.length then 1 else 0) + advanced i w.gens.length acts)))
        congr 1
        by_cases he : i0 = i
        · subst he
          rw [if_pos ⟨rfl, hlt⟩, List.getElem?_set_self hlt, hi]
          simp only [Option.getD_some]
          omega
        · rw [if_neg (fun h => he h.1), List.getElem?_set_ne he, Nat.zero_add]

/-- C143. Whatever a program does with a state and the iterators it made from it: iterating does not change the state, and advancing an iterator that has been advanced `k`
times gives sample `k` of the state as it then is, while there is one, and StopIteration from then on; other iterators play no part. -/
theorem C143_iterators {s : GState α} (hs : Reachable s) (acts : List (Act α)) (i : Nat) (hi : i < made acts) :
    (run ⟨s, []⟩ acts).state = GraphSpec.run s (writes acts) ∧ (run ⟨s, []⟩ acts).state.numSamples = s.numSamples ∧
    (advanced i 0 acts < s.numSamples → ∃ g, (step (run ⟨s, []⟩ acts) (.advance i)).2 = .sample g ∧ IsSample (GraphSpec.run s (writes acts)) (advanced i 0 acts) g) ∧
    (s.numSamples ≤ advanced i 0 acts → (step (run ⟨s, []⟩ acts) (.advance i)).2 = .stopIteration) ∧
    (step (run ⟨s, []⟩ acts) (.advance i)).1.state = (run ⟨s, []⟩ acts).state := by
  have hw := reachable_wf hs
  obtain ⟨h1, h2, h3⟩ := run_spec acts ⟨s, []⟩ hw (by intro j hj; cases hj)
  have h3 := h3 i (by simpa using hi)
  have h3 : (run ⟨s, []⟩ acts).gens[i]? = some (min s.numSamples (advanced i 0 acts)) := by
    rw [h3]
    simp
  obtain ⟨g1, g2⟩ := run_wf (writes acts) s hw
  have hstep : step (run ⟨s, []⟩ acts) (.advance i) = match advance (run ⟨s, []⟩ acts).state (min s.numSamples (advanced i 0 acts)) with
      | (idx', o) => ({ run ⟨s, []⟩ acts with gens := (run ⟨s, []⟩ acts).gens.set i idx' }, o) := by
    show (match (run ⟨s, []⟩ acts).gens[i]? with | none => _ | some idx => _) = _
    rw [h3]
  refine ⟨h1, by rw [h1]; exact g2, fun hlt => ?_, fun hge => ?_, ?_⟩
  · rw [hstep, Nat.min_eq_right (by omega), h1, advance_eq g1.toShape, if_pos (by rw [g2]; exact hlt)]
    exact ⟨_, rfl, isSample_of g1.toShape (by rw [g2]; exact hlt)⟩
  · rw [hstep, Nat.min_eq_left hge, h1, advance_eq g1.toShape, if_neg (by rw [g2]; exact Nat.lt_irrefl _)]
  · rw [hstep]

/-- C143 is false of `next(state)`: whatever happened before, it gives sample 0 of the state, so a program that steps through a state with `next` gets sample 0 for ever and no
StopIteration. -/
theorem C143_next_counterexample {s : GState α} (hs : Reachable s) (acts : List (Act α)) :
    ∃ g, (step (run ⟨s, []⟩ acts) .next) = (run ⟨s, []⟩ acts, .sample g) ∧ IsSample (GraphSpec.run s (writes acts)) 0 g := by
  have hw := reachable_wf hs
  obtain ⟨h1, _⟩ := run_spec acts ⟨s, []⟩ hw (by intro j hj; cases hj)
  obtain ⟨g1, g2⟩ := run_wf (writes acts) s hw
  refine ⟨_, ?_, isSample_of g1.toShape g1.pos⟩
  show (_, (advance _ 0).2) = _
  rw [h1, advance_eq g1.toShape, if_pos (show 0 < _ from g1.pos)]

/-- Two nested loops over a state of two samples, with a write in between: the outer loop's second sample is sample 1 of the new state. -/
example : ∃ (s : GState Nat) (g : GState Nat), GState.init 2 = .ok s ∧
    (step (run ⟨s, []⟩ [.set "a".toList "x".toList (.arr [.scalar 1, .scalar 2]) false, .iter, .advance 0, .iter, .advance 1, .advance 1, .advance 1,
      .set "a".toList "x".toList (.arr [.scalar 7, .scalar 8]) false]) (.advance 0)).2 = .sample g ∧ readParam g "a".toList "x".toList = some (.scalar 8) := by
  obtain ⟨g, h1, h2⟩ := (C143_iterators (s := (⟨2, 0, [], []⟩ : GState Nat)) ⟨2, _, [], rfl, rfl⟩ [.set "a".toList "x".toList (.arr [.scalar 1, .scalar 2]) false, .iter, .advance 0, .iter,
    .advance 1, .advance 1, .advance 1, .set "a".toList "x".toList (.arr [.scalar 7, .scalar 8]) false] 0 (by decide)).2.2.1 (by decide)
  exact ⟨_, g, rfl, h1, by rw [h2.2]; rfl⟩

end LCL.IterateProps
