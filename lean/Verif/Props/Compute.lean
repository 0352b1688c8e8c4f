import Verif.Lemmas.Nodes
import Verif.Spec.NodeMore

/-!
# Property C18: function node wiring
-/

namespace LCL.ComputeProps
open LCL LCL.GraphSpec LCL.GraphLemmas LCL.NodeSpec LCL.NodeLemmas
variable {α σ : Type}

theorem saveAllS_ok (nd : PNode α σ) (w : σ) : ∀ (l : List (Name × Val α)) (s s' : GState α),
    Heap.saveAllS nd s l = (s', none) →
    Heap.saveAll nd { gs := s, world := w, seen := [], calls := [] } l =
      .ok { gs := s', world := w, seen := [], calls := [] } := by
  intro l
  induction l with
  | nil => intro s s' h; cases h; rfl
  | cons q l ih =>
    intro s s' h
    obtain ⟨name, v⟩ := q
    unfold Heap.saveAllS at h
    unfold Heap.saveAll Heap.write
    split at h
    · rename_i s1 h1
      simp only [h1]
      exact ih s1 s' h
    · cases h

theorem saveResultsS_ok (nd : PNode α σ) (w : σ) (res : Val α) (s s' : GState α)
    (h : Heap.saveResultsS nd s res = (s', none)) :
    Heap.saveResults nd { gs := s, world := w, seen := [], calls := [] } res =
      .ok { gs := s', world := w, seen := [], calls := [] } := by
  unfold Heap.saveResultsS at h
  unfold Heap.saveResults
  split at h
  · rename_i o ho
    simp only [ho, Heap.write, h]
  · rename_i hno
    split at h
    · split at h
      · cases h
      · rename_i hl
        simp only [hl]
        exact saveAllS_ok nd w _ _ _ h
    · cases h

theorem buildInputs_bound {nd : PNode α σ} {s : GState α} (hs : WF s) {kwargs args : Dict Name (Val α)}
    (h : Heap.buildInputs nd s kwargs = .ok args) : BoundArgs nd s kwargs args := by
  have hread : ∀ a b, readParam s a b = look s a b := read_eq_look _ hs.toShape
  have key : ∀ (l : List Name) (a0 args : Dict Name (Val α)),
      l.foldlM (fun (args : Dict Name (Val α)) key => do
        match Dict.get? kwargs key with
        | some v => return args.set key v
        | none => return args.set key (← Heap.lookParam s nd.str key)) a0 = (.ok args : Except Err _) →
      ∀ a, (a ∈ l → ∃ v, args.get? a = some v ∧
          (kwargs.get? a = some v ∨ kwargs.get? a = none ∧ readParam s nd.str a = some v)) ∧
        (a ∉ l → args.get? a = a0.get? a) := by
    intro l
    induction l with
    | nil => intro a0 args h; cases h; simp
    | cons k l ih =>
      intro a0 args h a
      rw [List.foldlM_cons] at h
      have hv : ∃ v, l.foldlM (fun (args : Dict Name (Val α)) key => do
          match Dict.get? kwargs key with
          | some v => return args.set key v
          | none => return args.set key (← Heap.lookParam s nd.str key)) (a0.set k v) = (.ok args : Except Err _) ∧
          (kwargs.get? k = some v ∨ kwargs.get? k = none ∧ readParam s nd.str k = some v) := by
        cases hk : kwargs.get? k with
        | some v => rw [hk] at h; exact ⟨v, h, Or.inl rfl⟩
        | none =>
          rw [hk] at h
          simp only [bind, Except.bind] at h
          cases hl : Heap.lookParam s nd.str k with
          | error e => rw [hl] at h; cases h
          | ok v => rw [hl] at h; exact ⟨v, h, Or.inr ⟨rfl, by rw [hread]; exact lookParam_ok hl⟩⟩
      obtain ⟨v, hf, hb⟩ := hv
      obtain ⟨h1, h2⟩ := ih (a0.set k v) args hf a
      refine ⟨?_, ?_⟩
      · intro ha
        by_cases hal : a ∈ l
        · exact h1 hal
        · rcases List.mem_cons.1 ha with rfl | ha
          · exact ⟨v, by rw [h2 hal]; simp, hb⟩
          · exact absurd ha hal
      · intro ha
        simp only [List.mem_cons, not_or] at ha
        rw [h2 ha.2, Dict.get?_set, if_neg (fun e => ha.1 e.symm)]
  have := key nd.argNames [] args h
  exact ⟨fun a ha => (this a).1 ha, fun a ha => by simpa using (this a).2 ha⟩

/-- C18. A `compute` call that returns called the function once, in the world it was given, with
exactly the declared arguments (keyword arguments taking precedence over the state), returns the
function's result, and stores output `i` of it under output name `i` (unless that parameter is
fixed); nothing else in the state changes. -/
theorem C18_compute (nd : PNode α σ) (hnd : nd.outputs.Nodup) (s : GState α) (hs : Reachable s) (w : σ)
    (kwargs : Dict Name (Val α)) (res : Val α) (h : (Heap.computeS nd s w kwargs).result = .ok res) :
    ∃ f args, nd.body = some f ∧ BoundArgs nd s kwargs args ∧
      f w s.numSamples args = ((Heap.computeS nd s w kwargs).world, .ok res) ∧
      (∀ p ∈ nd.outputs, ¬ isFixed s nd.str p → ∃ u v, OutputOf nd.outputs p res u ∧
        storedAs s.numSamples u v ∧ readParam (Heap.computeS nd s w kwargs).state nd.str p = some v) ∧
      ∀ m p, (m ≠ nd.str ∨ p ∉ nd.outputs ∨ isFixed s m p) →
        readParam (Heap.computeS nd s w kwargs).state m p = readParam s m p := by
  have hw := reachable_wf hs
  have hread : ∀ a b, readParam s a b = look s a b := read_eq_look _ hw.toShape
  generalize hR : Heap.computeS nd s w kwargs = R at h ⊢
  unfold Heap.computeS at hR
  cases hb : nd.body with
  | none => rw [hb] at hR; simp only at hR; subst hR; cases h
  | some f =>
    rw [hb] at hR
    simp only at hR
    cases ha : Heap.buildInputs nd s kwargs with
    | error e => rw [ha] at hR; simp only at hR; subst hR; cases h
    | ok args =>
      rw [ha] at hR
      simp only at hR
      rcases hf : f w s.numSamples args with ⟨w', r⟩
      rw [hf] at hR
      cases r with
      | error e => simp only at hR; subst hR; cases h
      | ok results =>
        simp only at hR
        rcases hsv : Heap.saveResultsS nd s results with ⟨s', e⟩
        rw [hsv] at hR
        cases e with
        | some e => simp only at hR; subst hR; cases h
        | none =>
          simp only at hR; subst hR
          simp only [Except.ok.injEq] at h; subst h
          obtain ⟨a1, a2⟩ := saveResults_wrote nd _ _ results hw hnd (saveResultsS_ok nd w results s s' hsv)
          have hread' : ∀ a b, readParam s' a b = look s' a b := read_eq_look _ a1.wf.toShape
          refine ⟨f, args, rfl, buildInputs_bound hw ha, hf, ?_, ?_⟩
          · intro p hp hnf
            rcases a2 p hp with h | ⟨u, v, h1, h2, h3⟩
            · exact absurd ((isFixed_iff _ _ _).2 h) hnf
            · exact ⟨u, v, h1, h2, by rw [hread']; exact h3⟩
          · intro m p hc
            rw [hread', hread]
            apply a1.other
            rcases hc with h | h | h
            · exact Or.inl h
            · exact Or.inr (Or.inl h)
            · exact Or.inr (Or.inr ((isFixed_iff _ _ _).1 h))

/-- C18 (nothing partial). If the function raises, or returns a sequence whose length is not the
number of declared outputs (not one), the call raises and the state is exactly as before. -/
theorem C18_wrong_count (nd : PNode α σ) (s : GState α) (w : σ) (kwargs : Dict Name (Val α))
    (f : Body α σ) (hf : nd.body = some f) (hout : nd.outputs.length ≠ 1)
    (hbad : ∀ args, (∃ e, (f w s.numSamples args).2 = .error e) ∨
      ∃ rows, (f w s.numSamples args).2 = .ok (.arr rows) ∧ rows.length ≠ nd.outputs.length) :
    (Heap.computeS nd s w kwargs).state = s ∧ ∃ e, (Heap.computeS nd s w kwargs).result = .error e := by
  unfold Heap.computeS
  simp only [hf]
  cases ha : Heap.buildInputs nd s kwargs with
  | error e => exact ⟨rfl, e, rfl⟩
  | ok args =>
    simp only
    rcases hr : f w s.numSamples args with ⟨w', r⟩
    rcases hbad args with ⟨e, he⟩ | ⟨rows, he, hl⟩
    · rw [hr] at he; simp only at he; subst he; exact ⟨rfl, e, rfl⟩
    · rw [hr] at he; simp only at he; subst he
      have : Heap.saveResultsS nd s (.arr rows) = (s, some .valueError) := by
        unfold Heap.saveResultsS
        split
        · rename_i o ho; rw [ho] at hout; simp at hout
        · simp [hl]
      simp only [this]
      exact ⟨trivial, .valueError, rfl⟩

/-- A two-argument, two-output node, called with one keyword override. -/
example :
    let nd : PNode Nat Nat :=
      { cls := ['F'], label := some ['f'], isFunc := true, funcName := none,
        body := some (fun w _ a => (w + 1, match a.get? ['x'], a.get? ['y'] with
          | some u, some v => .ok (.arr [v, u])
          | _, _ => .error .typeError)),
        attrs := [], pos := none, str := ['f'], setters := [], argNames := [['x'], ['y']],
        outputs := [['p'], ['q']] }
    let s : GState Nat := run { numSamples := 1, numParams := 0, states := [], fixed := [] }
      [.set ['f'] ['x'] (.scalar 1) false, .set ['f'] ['y'] (.scalar 2) false]
    let R := Heap.computeS nd s 0 [(['y'], .scalar 9)]
    (∃ res, R.result = .ok res) ∧ readParam R.state ['f'] ['p'] = some (.scalar 9) ∧
      readParam R.state ['f'] ['q'] = some (.scalar 1) ∧ R.world = 1 :=
  ⟨⟨_, rfl⟩, rfl, rfl, rfl⟩

end LCL.ComputeProps
