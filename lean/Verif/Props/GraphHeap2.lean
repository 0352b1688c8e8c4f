import Verif.Props.GraphHeap
import Verif.Model.Samplers

/-!
# C129: sampling from a `GivenValueList`
-/

namespace LCL.GraphHeapProps
open LCL LCL.GraphHeap LCL.GraphHeapSpec

variable {α : Type}

theorem view_next {h : GraphHeap.Heap α} {r st l k n : Nat} (hk : k + n ≤ (h.view r st l).length) : h.view r (st + k) n = ((h.view r st l).drop k).take n := by
  unfold GraphHeap.Heap.view at *
  rw [List.drop_take, List.take_take, List.drop_drop]
  rw [List.length_take] at hk
  rw [Nat.min_eq_left (by omega)]

theorem giveNext_draw (h : GraphHeap.Heap α) (nd : Given) (n : Nat) :
    (GivenList.mk ((h.view nd.ref nd.start nd.len).map Val.scalar) nd.next).draw n = match giveNext h nd n with
      | .error e => (⟨(h.view nd.ref nd.start nd.len).map Val.scalar, nd.next⟩, .error e)
      | .ok (nd', v) => (⟨(h.view nd.ref nd.start nd.len).map Val.scalar, nd'.next⟩, .ok (shown h v)) := by
  unfold GivenList.draw giveNext
  dsimp only
  by_cases h1 : n = 1
  · rw [if_pos h1, if_pos h1, List.getElem?_map]
    cases (h.view nd.ref nd.start nd.len)[nd.next]? <;> rfl
  · rw [if_neg h1, if_neg h1, List.length_map]
    by_cases h2 : nd.next + n > (h.view nd.ref nd.start nd.len).length
    · rw [if_pos h2, if_pos h2]
    · rw [if_neg h2, if_neg h2]
      simp only [shown]
      rw [view_next (l := nd.len) (by omega), List.map_take, List.map_drop]

/-- C129, sampling: computing a `GivenValueList` node does to the values it shows exactly what `GivenList.draw` (C19) says, from the position where the previous call
stopped: it raises and changes nothing when not enough values are left, and otherwise stores the next values in the state and moves on. A reset goes back to the first. -/
theorem C129_draws {W : World α} (hW : Reachable W) {g i : Nat} {nd : Given} {s : HState α} {vals : List α} (hg : W.nodes[g]? = some nd) (hi : W.states[i]? = some s)
    (hv : givenValues W g = some vals) (node var : Name) :
    (∀ G' e, (GivenList.mk (vals.map Val.scalar) nd.next).draw s.numSamples = (G', .error e) → step W (.compute g i node var) = (W, some e)) ∧
    (∀ G' v, (GivenList.mk (vals.map Val.scalar) nd.next).draw s.numSamples = (G', .ok v) →
      seen (step W (.compute g i node var)).1 i = some ((seenState W.heap s).set node var v false).1 ∧
      (step W (.compute g i node var)).2 = ((seenState W.heap s).set node var v false).2 ∧
      (step W (.compute g i node var)).1.nodes[g]? = some { nd with next := G'.next } ∧ givenValues (step W (.compute g i node var)).1 g = some vals) ∧
    (step W (.reset g)).1.nodes[g]? = some { nd with next := 0 } ∧ givenValues (step W (.reset g)).1 g = some vals := by
  have H := reachable_sound hW
  have hs := H.states s (List.mem_of_getElem? hi)
  have hlt : ∀ {β : Type} {l : List β} {k : Nat} {x : β}, l[k]? = some x → k < l.length := by
    intro β l k x h
    rcases Nat.lt_or_ge k l.length with h' | h'
    · exact h'
    · rw [List.getElem?_eq_none h'] at h; cases h
  have hvals : vals = W.heap.view nd.ref nd.start nd.len := by
    unfold givenValues at hv
    rw [hg] at hv
    exact (Option.some.inj hv).symm
  subst hvals
  rw [giveNext_draw]
  have hst : step W (.compute g i node var) = match giveNext W.heap nd s.numSamples with
      | .error e => (W, some e)
      | .ok (nd', v) => World.put { W with nodes := W.nodes.set g nd' } i (GraphHeap.set W.heap s node var v false false) := by
    show (match W.nodes[g]?, W.states[i]? with | some nd, some s => _ | _, _ => _) = _
    rw [hg, hi]
    rfl
  have hre : (step W (.reset g)).1 = { W with nodes := W.nodes.set g { nd with next := 0 } } := by
    show (match W.nodes[g]? with | none => (W, some Err.nameError) | some nd => _).1 = _
    rw [hg]
  refine ⟨?_, ?_, ?_, ?_⟩
  · intro G' e h
    cases hn : giveNext W.heap nd s.numSamples with
    | error e' => rw [hn] at h; cases h; rw [hst, hn]
    | ok r => rw [hn] at h; cases h
  · intro G' v h
    cases hn : giveNext W.heap nd s.numSamples with
    | error e' => rw [hn] at h; cases h
    | ok r =>
      obtain ⟨nd', v'⟩ := r
      rw [hn] at h
      cases h
      obtain ⟨e1, e2, e3, -⟩ := giveNext_spec hn
      rw [hst, hn]
      have h1 := set_seen hs node var v' false false
      have hnode : (W.nodes.set g nd')[g]? = some nd' := List.getElem?_set_self (hlt hg)
      have hnd' : nd' = { nd with next := nd'.next } := by
        cases nd; cases nd'; simp only at e1 e2 e3; subst e1; subst e2; subst e3; rfl
      refine ⟨?_, h1.2, ?_, ?_⟩
      · unfold seen World.put
        dsimp only
        rw [List.getElem?_set_self (hlt hi)]
        exact congrArg some h1.1
      · show (W.nodes.set g nd')[g]? = _
        rw [hnode, ← hnd']
      · unfold givenValues World.put
        dsimp only
        rw [hnode, Option.map_some, e1, e2, e3]
        unfold GraphHeap.Heap.view GraphHeap.Heap.cells
        rw [(set_spec W.heap s node var v' false false).1.get (H.nodes nd (List.mem_of_getElem? hg))]
  · rw [hre]
    exact List.getElem?_set_self (hlt hg)
  · rw [hre]
    unfold givenValues
    dsimp only
    rw [List.getElem?_set_self (hlt hg)]
    rfl

/-- The hypotheses are met, and two computations of two samples give the first four values of the list. -/
example : ∃ W : World Nat, W = run (start (α := Nat)) [.list [1, 2, 3, 4, 5], .given 0, .new 2, .new 2, .compute 0 0 "n".toList "x".toList, .compute 0 1 "n".toList "x".toList] ∧
    Reachable W ∧ seenParam W 0 "n".toList "x".toList = some (.arr [.scalar 1, .scalar 2]) ∧ seenParam W 1 "n".toList "x".toList = some (.arr [.scalar 3, .scalar 4]) ∧
    (step W (.compute 0 0 "n".toList "x".toList)).2 = some .indexError := ⟨_, rfl, ⟨_, rfl⟩, rfl, rfl, rfl⟩

end LCL.GraphHeapProps
