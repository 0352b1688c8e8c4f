import Verif.Props.NodeApi
import Verif.Props.Nodes2
import Verif.Props.Nodes3

/-!
# Concrete parameter graphs: the hypotheses of C11–C15 and C59 are met, and the known exceptions
-/

namespace LCL.NodeExamples
open LCL LCL.GraphSpec LCL.NodeSpec LCL.ApiSpec

/-- A counter world: the function returns `x + counter` for every row and bumps the counter. -/
def addCounter : Body Nat Nat := fun w n args =>
  (w + 1, match args.get? ['x'] with
    | some (.scalar a) => .ok (.scalar (a + w))
    | some (.arr _) => .ok (.arr (List.replicate n (.scalar (100 + w))))
    | _ => .error .typeError)

/-- A model with a constant, a function of a constant, and a link to a second model. -/
def history : List (ApiOp Nat Nat) :=
  [.newNode "Model".toList (some "model".toList) [],
   .newNode "Host".toList (some "host".toList) [],
   .addParameter 1 ['z'] (.const (.scalar 5)) none [],
   .newFunction "FunctionNode".toList (some "fun".toList) (some ['f']) (some addCounter) funcAttrs [] [(['x'], .method 1 ['z'])],
   .addParameter 0 ['a'] (.const (.scalar 7)) none [],
   .addParameter 0 ['b'] (.node 2) none [],
   .addParameter 0 ['z'] (.node 1) none [],
   .setParameter 0 ['a'] (.const (.scalar 8)) [],
   .setGraphPositions 0 []]

/-- The history satisfies the hypotheses of C59 and C12. -/
theorem history_keeps : KeepsOutputs ([] : Heap Nat Nat) history := by
  refine ⟨trivial, trivial, trivial, trivial, trivial, trivial, trivial, ?_, trivial, trivial⟩
  intro nd h
  have : nd.outputs = [] := by
    have h := Option.some.inj h
    rw [← h]; rfl
  rw [this]; simp

example : GraphOK (Heap.applyAll [] history) := (ApiProps.C59_wellformed history history_keeps).1

/-- Sampling it succeeds, and the values are the expected ones. -/
example : ∃ r, Heap.sampleFrom (Heap.applyAll [] history) [0] none 1 3 = .ok r ∧
    readParam r.gs "model".toList ['a'] = some (.scalar 8) ∧
    readParam r.gs "model".toList ['b'] = some (.scalar 8) ∧
    readParam r.gs "model".toList ['z'] = some (.scalar 5) ∧
    r.world = 4 ∧ r.calls.map (·.1) = [2] := by
  refine ⟨_, rfl, ?_, ?_, ?_, ?_, ?_⟩ <;> rfl

/-- `given_args` override the constant of the host, and everything downstream follows (C13). -/
example : ∃ r, Heap.sampleFrom (Heap.applyAll [] history) [0]
      (some (.nested [("host".toList, [(['z'], .scalar 9)])])) 1 3 = .ok r ∧
    readParam r.gs "model".toList ['b'] = some (.scalar 12) ∧
    readParam r.gs "model".toList ['z'] = some (.scalar 9) := by
  refine ⟨_, rfl, ?_, ?_⟩ <;> rfl

example : GivenOK (some (.nested [("host".toList, [(['z'], (.scalar 9 : Val Nat))])])) :=
  ⟨by decide, by intro q hq; simp at hq; subst hq; decide⟩

/-- A function that always returns a row per sample. -/
def rows : Body Nat Nat := fun w n _ => (w + 1, .ok (.arr (List.replicate n (.scalar w))))

/-- A two-node graph. -/
def small : Heap Nat Nat := Heap.applyAll []
  [.newFunction "F".toList (some ['f']) none (some rows) funcAttrs [] [(['x'], .const (.scalar 1))],
   .newNode "M".toList (some ['m']) [],
   .addParameter 1 ['a'] (.node 0) none []]

/-- The hypotheses of C14_succeeds hold of it, for any number of samples. -/
theorem small_runnable (n : Nat) : Runnable small [1] n := by
  have hread : ∀ a b : NodeId, Reads small a b → a = 1 ∧ b = 0 := by
    rintro a b ⟨nd, p, st, h1, h2, h3⟩
    match a with
    | 0 =>
      cases h1
      change (p, st) ∈ [((['x'] : Name), (⟨.const (.scalar 1), true⟩ : Setter Nat)),
        (resultName, ⟨.computeOut resultName, false⟩)] at h2
      simp at h2
      rcases h2 with ⟨rfl, rfl⟩ | ⟨rfl, rfl⟩ <;> rcases h3 with ⟨q, h3⟩ | ⟨q, h3⟩ <;> cases h3
    | 1 =>
      cases h1
      change (p, st) ∈ [((['a'] : Name), (⟨.funcNode 0 resultName, false⟩ : Setter Nat))] at h2
      simp at h2
      obtain ⟨rfl, rfl⟩ := h2
      rcases h3 with ⟨q, h3⟩ | ⟨q, h3⟩ <;> cases h3
      exact ⟨rfl, rfl⟩
    | a + 2 => cases h1
  have hreach : ∀ a : NodeId, Reach small [1] a → a = 1 ∨ a = 0 := by
    intro a h
    cases h with
    | root h => simp at h; exact Or.inl h
    | step _ h => exact Or.inr (hread _ _ h).2
  refine ⟨⟨id, ?_⟩, ?_, ?_, ?_, ?_, ?_, ?_, ?_⟩
  · intro a b _ h; obtain ⟨rfl, rfl⟩ := hread a b h; decide
  · intro a h; simp at h; subst h; decide
  · intro a b na nb ha hb h1 h2 h
    rcases hreach a ha with rfl | rfl <;> rcases hreach b hb with rfl | rfl <;> cases h1 <;> cases h2 <;>
      first | rfl | (exact absurd h (by decide))
  · intro a na ha h1
    rcases hreach a ha with rfl | rfl <;> cases h1 <;> exact ⟨by decide, by decide⟩
  · intro a na ha h1 q hq
    rcases hreach a ha with rfl | rfl <;> cases h1
    · change q ∈ [((['a'] : Name), (⟨.funcNode 0 resultName, false⟩ : Setter Nat))] at hq
      simp at hq; subst hq; simp
    · change q ∈ [((['x'] : Name), (⟨.const (.scalar 1), true⟩ : Setter Nat)),
        (resultName, ⟨.computeOut resultName, false⟩)] at hq
      simp at hq
      rcases hq with rfl | rfl <;> simp
  · intro a na ha h1 q hq d x hs
    rcases hreach a ha with rfl | rfl <;> cases h1
    · change q ∈ [((['a'] : Name), (⟨.funcNode 0 resultName, false⟩ : Setter Nat))] at hq
      simp at hq; subst hq; simp at hs; obtain ⟨rfl, rfl⟩ := hs
      exact ⟨_, rfl, by decide⟩
    · change q ∈ [((['x'] : Name), (⟨.const (.scalar 1), true⟩ : Setter Nat)),
        (resultName, ⟨.computeOut resultName, false⟩)] at hq
      simp at hq
      rcases hq with rfl | rfl <;> simp at hs
  · intro a na ha h1 x hx
    rcases hreach a ha with rfl | rfl <;> cases h1
    · change x ∈ ([] : List Name) at hx; cases hx
    · have : x = ['x'] := by
        change x ∈ [(['x'] : Name)] at hx
        simpa using hx
      subst this; decide
  · intro a na ha h1 hne
    rcases hreach a ha with rfl | rfl <;> cases h1
    · exact absurd rfl hne
    · refine ⟨rows, rfl, ?_⟩
      intro w args _
      refine ⟨w + 1, _, rfl, ?_⟩
      intro p hp
      change p ∈ [resultName] at hp
      simp at hp; subst hp
      refine ⟨_, .arr (List.replicate n (.scalar w)), Or.inl ⟨rfl, rfl⟩, ?_⟩
      by_cases h : n = 1
      · exact Or.inl ⟨h, rfl⟩
      · exact Or.inr ⟨h, _, rfl, by simp, Or.inl rfl⟩

/-! ## Exceptions found in the code -/

/-- A two-output function. -/
def two : Body Nat Nat := fun w _ _ => (w, .ok (.arr [.scalar 1, .scalar 2]))

/-- C61 counterexample. `set_parameter` accepts a new constant for one output of a two-output
function node and reports no error, but sampling returns what the function computed. -/
theorem C61_overridden_output_counterexample :
    ∃ (H : Heap Nat Nat) (r : Heap.Run Nat Nat),
      H = (Heap.setParameter (Heap.applyAll []
        [.newFunction "F".toList (some ['f']) none (some two) funcAttrs [['p'], ['q']] []])
        0 ['p'] (.const (.scalar 50)) []).1 ∧
      (Heap.setParameter (Heap.applyAll []
        [.newFunction "F".toList (some ['f']) none (some two) funcAttrs [['p'], ['q']] []])
        0 ['p'] (.const (.scalar 50)) []).2 = none ∧
      sourceOf H 0 ['p'] = some ⟨.const (.scalar 50), true⟩ ∧
      Heap.sampleFrom H [0] none 1 0 = .ok r ∧ readParam r.gs ['f'] ['p'] = some (.scalar 1) := by
  refine ⟨_, _, rfl, rfl, rfl, rfl, rfl⟩

/-- C62, partial: when the edited node is itself the one that is sampled, sampling numbers the whole
current graph first, so (by C11) every reachable node has a position, and unlabelled nodes have
different names. Missing: edits of the *dependencies* of the sampled node, for which the property
fails (`C62_stale_numbering_counterexample`). -/
theorem C62_edited_root_is_renumbered_partial {α σ : Type} (H : Heap α σ) (root : NodeId) (hlt : root < H.length)
    (name : Name) (value : PyVal α σ) (kwargs : List (Name × PyVal α σ))
    (objects : List NodeId) (given : Option (GState.UpdateArg α)) (n : Int) (w : σ)
    (H' : Heap α σ) (r : Heap.Run α σ)
    (hs : Heap.sampleParameters (H.setParameter root name value kwargs).1 root objects given n w = .ok (H', r)) :
    Heap.setPositions (H.setParameter root name value kwargs).1 (root :: objects) = .ok H' ∧
      Heap.sampleFrom H' (objects ++ [root]) given n w = .ok r := by
  obtain ⟨nd, hid⟩ : ∃ nd, H[root]? = some nd := ⟨_, List.getElem?_eq_getElem hlt⟩
  have hpos : ∃ nd', (H.setParameter root name value kwargs).1[root]? = some nd' ∧ nd'.pos = none := by
    have hc : (H.clearPos root)[root]? = some { nd with pos := none } := by
      unfold Heap.clearPos; rw [ApiLemmas.modify_get, if_pos rfl, hid]; rfl
    unfold Heap.setParameter
    rcases ApiLemmas.setWith_spec (ApiLemmas.wrap_same kwargs) hid name (Heap.pickValue name value kwargs) with
      ⟨_, h⟩ | ⟨_, e, h⟩ | ⟨_, H1, st, K, _, he, _, _, hget⟩
    · rw [h]; exact ⟨_, hc, rfl⟩
    · rw [h]; exact ⟨_, hc, rfl⟩
    · rw [he]; exact ⟨_, hget, rfl⟩
  obtain ⟨nd', h1, h2⟩ := hpos
  unfold Heap.sampleParameters at hs
  rw [h1] at hs
  simp only [h2, if_true, bind, Except.bind] at hs
  cases h3 : Heap.setPositions (H.setParameter root name value kwargs).1 (root :: objects) with
  | error e => rw [h3] at hs; cases hs
  | ok K =>
    rw [h3] at hs
    simp only at hs
    cases h4 : Heap.sampleFrom K (objects ++ [root]) given n w with
    | error e => rw [h4] at hs; cases hs
    | ok r' => rw [h4] at hs; cases hs; exact ⟨rfl, h4⟩

/-- C62 counterexample. A graph is numbered; then two unlabelled function nodes are attached to a
dependency of the root. Every edit succeeds, sampling the root raises (the new nodes were never
numbered and share a name), while numbering the graph again would give all nodes different names. -/
theorem C62_stale_numbering_counterexample :
    ∃ (ops : List (ApiOp Nat Nat)) (e : Err), KeepsOutputs [] ops ∧
      (∀ k, k < ops.length → ∃ op, ops[k]? = some op ∧ ((Heap.applyAll [] (ops.take k)).apply op).2 = none) ∧
      Heap.sampleParameters (Heap.applyAll [] ops) 0 [] none 1 0 = .error e ∧
      ∀ H', Heap.setPositions (Heap.applyAll [] ops) [0] = .ok H' → ∀ a b na nb,
        Reach (Heap.applyAll [] ops) [0] a → Reach (Heap.applyAll [] ops) [0] b →
        H'[a]? = some na → H'[b]? = some nb → na.label = none → nb.label = none → a ≠ b →
        na.str ≠ nb.str := by
  refine ⟨[.newNode "M".toList (some ['m']) [], .newNode "D".toList (some ['d']) [],
    .addParameter 1 ['x'] (.const (.scalar 1)) none [], .addParameter 1 ['y'] (.const (.scalar 1)) none [],
    .addParameter 0 ['x'] (.node 1) none [], .setGraphPositions 0 [],
    .setParameter 1 ['x'] (.func ['g'] rows) [], .setParameter 1 ['y'] (.func ['g'] rows) []],
    .valueError, ?_, ?_, rfl, ?_⟩
  · refine ⟨trivial, trivial, trivial, trivial, trivial, trivial, ?_, ?_, trivial⟩
    · intro nd h
      have : nd.outputs = [] := by rw [← Option.some.inj h]; rfl
      rw [this]; simp
    · intro nd h
      have : nd.outputs = [] := by rw [← Option.some.inj h]; rfl
      rw [this]; simp
  · intro k hk
    match k with
    | 0 => exact ⟨_, rfl, rfl⟩
    | 1 => exact ⟨_, rfl, rfl⟩
    | 2 => exact ⟨_, rfl, rfl⟩
    | 3 => exact ⟨_, rfl, rfl⟩
    | 4 => exact ⟨_, rfl, rfl⟩
    | 5 => exact ⟨_, rfl, rfl⟩
    | 6 => exact ⟨_, rfl, rfl⟩
    | 7 => exact ⟨_, rfl, rfl⟩
    | k + 8 => simp at hk; omega
  · intro H' hset a b na nb ha hb h1 h2 h3 h4 h5
    refine NodeProps.C15_unlabelled_names_distinct (ApiProps.C59_wellformed _ ?_).1 0 [] ?_ hset a b na nb ha hb h1 h2 h3 h4 h5
    · refine ⟨trivial, trivial, trivial, trivial, trivial, trivial, ?_, ?_, trivial⟩
      · intro nd h
        have : nd.outputs = [] := by rw [← Option.some.inj h]; rfl
        rw [this]; simp
      · intro nd h
        have : nd.outputs = [] := by rw [← Option.some.inj h]; rfl
        rw [this]; simp
    · intro x hx; simp at hx; subst hx; decide

end LCL.NodeExamples
