import Verif.Model.SamplerShare
import Verif.Props.Samplers2

/-!
# Property C134: choice samplers and the caller's arrays
-/

namespace LCL.SamplerShareProps
open LCL LCL.SamplerShare LCL.SamplerProps

variable {K : Type} [Field K] [LinearOrder K] [IsStrictOrderedRing K] {α σ ρ : Type}

/-! ## Specification -/

/-- The `i`-th sampler has the values and weights `vs`. -/
def Shows (W : World K α) (i : Nat) (vs : ValueSampler K α) : Prop := ∃ c, W.samplers[i]? = some c ∧ SamplerShare.seen W c = vs

/-- The operation writes to an array the argument names: by an assignment of the caller. -/
def WritesTo (v : Arg (Val α)) (w : Option (Arg K)) : Op K α → Prop
  | .writeValue r _ _ => v = .array r
  | .writeFloat r _ _ => w = some (.array r)
  | _ => False

/-- The entries the argument has now. -/
def now {β : Type} (arrays : List (List β)) : Arg β → List β
  | .list l => l
  | .array r => (arrays[r]?).getD []

/-- The weights argument, as its entries are now, is the weights `l` (all numbers). -/
def WeightsNow (W : World K α) : Option (Arg K) → Weights K → Prop
  | none, x => x = .absent
  | some (.list l), x => x = .floats l
  | some (.array r), x => ∃ l : List K, W.floats[r]? = some (l.map some) ∧ x = .floats l

/-! ## Proofs -/

theorem mapM_some (l : List K) : (l.map some).mapM id = some l := by
  induction l with
  | nil => rfl
  | cons x l ih => rw [List.map_cons, List.mapM_cons, ih]; rfl

theorem mapM_none_ne {l : List (Option K)} (h : l.mapM id = none) : l ≠ [] := by rintro rfl; cases h

theorem mapM_all_none {l : List (Option K)} (h : l ≠ []) : (l.map fun _ => (none : Option K)).mapM id = none := by
  cases l with
  | nil => exact absurd rfl h
  | cons x l => rw [List.map_cons, List.mapM_cons]; rfl

theorem normalise_none {l : List (Option K)} : normalise (l.map fun _ => (none : Option K)) = l.map fun _ => none := by
  by_cases h : l = []
  · subst h; simp [normalise]
  · unfold normalise
    rw [mapM_all_none h, List.map_map]
    rfl

/-- Dividing by the sum twice is dividing by it once. -/
theorem normalise_twice (l : List (Option K)) : normalise (normalise l) = normalise l := by
  have hdef : normalise l = (match l.mapM id with
    | none => l.map fun _ => none
    | some w => if w.sum = 0 then l.map fun _ => none else w.map fun x => some (x / w.sum)) := rfl
  cases h : l.mapM id with
  | none =>
    have e : normalise l = l.map fun _ => none := by rw [hdef, h]
    rw [e, normalise_none]
  | some w =>
    by_cases hs : w.sum = 0
    · have e : normalise l = l.map fun _ => none := by rw [hdef, h]; exact if_pos hs
      rw [e, normalise_none]
    · have e : normalise l = (w.map fun x => x / w.sum).map some := by
        rw [hdef, h]
        dsimp only
        rw [if_neg hs, List.map_map]
        rfl
      have hone : (w.map fun x => x / w.sum).sum = 1 := by rw [sum_map_div, div_self hs]
      rw [e]
      unfold normalise
      rw [mapM_some]
      dsimp only
      rw [hone, if_neg one_ne_zero]
      simp

theorem normalise_nums {w : List K} (hs : w.sum ≠ 0) : normalise (w.map some) = (w.map fun x => x / w.sum).map some := by
  unfold normalise
  rw [mapM_some]
  dsimp only
  rw [if_neg hs, List.map_map]
  rfl

theorem normalise_zero {w : List K} (hs : w.sum = 0) : normalise (w.map some) = w.map fun _ => none := by
  unfold normalise
  rw [mapM_some]
  dsimp only
  rw [if_pos hs, List.map_map]
  rfl

theorem normalise_read (w : List K) (h : w ≠ []) : (normalise (w.map some)).mapM id = if w.sum = 0 then none else some (w.map fun x => x / w.sum) := by
  split
  · rename_i hs
    rw [normalise_zero hs]
    have := mapM_all_none (l := w.map some) (by simpa using h)
    rw [List.map_map] at this
    exact this
  · rename_i hs
    rw [normalise_nums hs, mapM_some]

theorem content_asarray {β : Type} (arrays : List (List β)) (v : Arg β) : content arrays (asarray v) = now arrays v := by cases v <;> rfl

theorem build_empty {W : World K α} {v : Arg (Val α)} (w : Option (Arg K)) (h : (now W.values v).length = 0) : build W v w = .error .valueError := by
  unfold build
  dsimp only
  rw [content_asarray, if_pos h]

theorem build_none {W : World K α} {v : Arg (Val α)} (h : (now W.values v).length ≠ 0) :
    build W v none = .ok ⟨W.floats, W.values, W.samplers ++ [⟨asarray v, none⟩]⟩ := by
  unfold build
  dsimp only
  rw [content_asarray, if_neg h]

theorem build_some {W : World K α} {v : Arg (Val α)} {w : Arg K} (h : (now W.values v).length ≠ 0) {src : SamplerShare.Src (Option K)} {fl : List (List (Option K))}
    (ht : takeWeights W.floats (now W.values v).length w = .ok (src, fl)) : build W v (some w) = .ok ⟨fl, W.values, W.samplers ++ [⟨asarray v, some src⟩]⟩ := by
  unfold build
  dsimp only
  rw [content_asarray, if_neg h, ht]

theorem build_bad {W : World K α} {v : Arg (Val α)} {w : Arg K} (h : (now W.values v).length ≠ 0) {e : Err}
    (ht : takeWeights W.floats (now W.values v).length w = .error e) : build W v (some w) = .error e := by
  unfold build
  dsimp only
  rw [content_asarray, if_neg h, ht]

theorem step_ok {W W' : World K α} {v : Arg (Val α)} {w : Option (Arg K)} (hn : Named W (.build v w) = true) (h : build W v w = .ok W') :
    step W (.build v w) = (W', none) := by
  unfold step
  rw [if_neg (by rw [hn]; exact Bool.noConfusion)]
  dsimp only
  rw [h]

theorem step_error {W : World K α} {v : Arg (Val α)} {w : Option (Arg K)} (hn : Named W (.build v w) = true) {e : Err} (h : build W v w = .error e) :
    step W (.build v w) = (W, some e) := by
  unfold step
  rw [if_neg (by rw [hn]; exact Bool.noConfusion)]
  dsimp only
  rw [h]

/-- **C134** (construction). Whatever happened before, a sampler built from lists or arrays has the values and normalised weights `GivenValueSampler` gives for their entries as
they are now, or raises its exception and changes nothing. -/
theorem C134_build (W : World K α) (v : Arg (Val α)) (w : Option (Arg K)) (x : Weights K) (hn : Named W (.build v w) = true) (hx : WeightsNow W w x) :
    (∀ vs, ValueSampler.init (now W.values v) x = .ok vs →
      (step W (.build v w)).2 = none ∧ Shows (step W (.build v w)).1 W.samplers.length vs) ∧
    (∀ e, ValueSampler.init (now W.values v) x = .error e → step W (.build v w) = (W, some e)) := by
  have hlast : ∀ (c : Sampler K α), (W.samplers ++ [c])[W.samplers.length]? = some c := by intro c; simp
  unfold ValueSampler.init
  by_cases h0 : (now W.values v).length = 0
  · rw [if_pos h0, step_error hn (build_empty w h0)]
    exact ⟨(by intro vs h; cases h), (by intro e h; cases h; rfl)⟩
  rw [if_neg h0]
  cases w with
  | none =>
    cases hx
    rw [step_ok hn (build_none h0)]
    refine ⟨?_, (by intro e h; cases h)⟩
    intro vs h
    cases h
    refine ⟨rfl, _, hlast _, ?_⟩
    unfold SamplerShare.seen
    dsimp only
    rw [content_asarray]
    rfl
  | some w =>
    have fin : ∀ (l : List K), l.length = (now W.values v).length → ∀ (src : SamplerShare.Src (Option K)) (fl : List (List (Option K))),
        content fl src = normalise (l.map some) → ∀ vs,
        (Except.ok ⟨now W.values v, some (if l.sum = 0 then none else some (l.map fun w => w / l.sum))⟩ : Except Err (ValueSampler K α)) = .ok vs →
        Shows ⟨fl, W.values, W.samplers ++ [⟨asarray v, some src⟩]⟩ W.samplers.length vs := by
      intro l hlen src fl hsrc vs hvs
      cases hvs
      refine ⟨_, hlast _, ?_⟩
      unfold SamplerShare.seen
      dsimp only
      rw [content_asarray, Option.map_some, hsrc, normalise_read]
      rintro rfl
      exact h0 (by simpa using hlen.symm)
    cases w with
    | list l =>
      have hx : x = .floats l := hx
      subst hx
      dsimp only
      have hc : content W.floats (asarray (floatArg (.list l))) = l.map some := rfl
      by_cases hlen : l.length = (now W.values v).length
      · have ht : takeWeights W.floats (now W.values v).length (.list l) = .ok (.own (normalise (l.map some)), W.floats) := by
          unfold takeWeights
          dsimp only
          rw [hc, List.length_map, if_neg (not_not.2 hlen)]
          rfl
        rw [step_ok hn (build_some h0 ht), if_neg (not_not.2 hlen)]
        exact ⟨fun vs hvs => ⟨rfl, fin l hlen _ _ rfl vs hvs⟩, (by intro e h; cases h)⟩
      · have ht : takeWeights W.floats (now W.values v).length (.list l) = .error .valueError := by
          unfold takeWeights
          dsimp only
          rw [hc, List.length_map, if_pos hlen]
        rw [step_error hn (build_bad h0 ht), if_pos hlen]
        exact ⟨(by intro vs h; cases h), (by intro e h; cases h; rfl)⟩
    | array r =>
      obtain ⟨l, hl, rfl⟩ := hx
      have hr : r < W.floats.length := (List.getElem?_eq_some_iff.1 hl).1
      dsimp only
      have hc : content W.floats (asarray (floatArg (.array r : Arg K))) = l.map some := by
        show (W.floats[r]?).getD [] = _
        rw [hl]
        rfl
      have hc' : content W.floats (.shared r) = l.map some := hc
      by_cases hlen : l.length = (now W.values v).length
      · have ht : takeWeights W.floats (now W.values v).length (.array r) = .ok (.shared r, W.floats.set r (normalise (l.map some))) := by
          unfold takeWeights
          dsimp only
          rw [hc, List.length_map, if_neg (not_not.2 hlen)]
          show Except.ok (Src.shared r, W.floats.set r (normalise (content W.floats (.shared r)))) = _
          rw [hc']
        rw [step_ok hn (build_some h0 ht), if_neg (not_not.2 hlen)]
        refine ⟨fun vs hvs => ⟨rfl, fin l hlen _ _ ?_ vs hvs⟩, (by intro e h; cases h)⟩
        show ((W.floats.set r (normalise (l.map some)))[r]?).getD [] = _
        rw [List.getElem?_set_self hr]
        rfl
      · have ht : takeWeights W.floats (now W.values v).length (.array r) = .error .valueError := by
          unfold takeWeights
          dsimp only
          rw [hc, List.length_map, if_pos hlen]
        rw [step_error hn (build_bad h0 ht), if_pos hlen]
        exact ⟨(by intro vs h; cases h), (by intro e h; cases h; rfl)⟩

/-- What one build does to the arrays: the values are left alone, an array of weights may be divided by its sum. -/
theorem build_arrays {W W' : World K α} {v : Arg (Val α)} {w : Option (Arg K)} (h : build W v w = .ok W') :
    W'.values = W.values ∧ (∃ c, W'.samplers = W.samplers ++ [c] ∧ c.values = asarray v ∧
      (∀ r, c.weights = some (.shared r) → w = some (.array r)) ∧ (∀ r, w = some (.array r) → c.weights = some (.shared r)) ∧
      (∀ r, w = some (.array r) → r < W.floats.length → W'.floats[r]? = some (normalise ((W.floats[r]?).getD [])))) ∧
    ∀ (r : Nat) l, W.floats[r]? = some l → W'.floats[r]? = some l ∨ w = some (.array r) ∧ W'.floats[r]? = some (normalise l) := by
  unfold build at h
  dsimp only at h
  split at h
  · cases h
  cases w with
  | none =>
    cases h
    exact ⟨rfl, ⟨_, rfl, rfl, (by intro r h; cases h), (by intro r h; cases h), (by intro r h; cases h)⟩, fun r l h => Or.inl h⟩
  | some w =>
    dsimp only at h
    unfold takeWeights at h
    dsimp only at h
    cases w with
    | list l =>
      by_cases hl : (content W.floats (asarray (floatArg (.list l)))).length = (content W.values (asarray v)).length
      · rw [if_neg (not_not.2 hl)] at h
        cases h
        exact ⟨rfl, ⟨_, rfl, rfl, (by intro r h; cases h), (by intro r h; cases h), (by intro r h; cases h)⟩, fun r l h => Or.inl h⟩
      · rw [if_pos hl] at h; cases h
    | array r =>
      by_cases hl : (content W.floats (asarray (floatArg (.array r : Arg K)))).length = (content W.values (asarray v)).length
      · rw [if_neg (not_not.2 hl)] at h
        cases h
        refine ⟨rfl, ⟨_, rfl, rfl, (by intro r' h; cases h; rfl), (by intro r' h; cases h; rfl), ?_⟩, ?_⟩
        · intro r' hr' hlt
          cases hr'
          show (W.floats.set r _)[r]? = _
          rw [List.getElem?_set_self hlt]
          rfl
        · intro r' l hl'
          by_cases e : r = r'
          · subst e
            right
            refine ⟨rfl, ?_⟩
            show (W.floats.set r (normalise ((W.floats[r]?).getD [])))[r]? = _
            rw [List.getElem?_set_self (List.getElem?_eq_some_iff.1 hl').1, hl']
            rfl
          · left
            show (W.floats.set r _)[r']? = _
            rw [List.getElem?_set_ne e]
            exact hl'
      · rw [if_pos hl] at h; cases h

/-- One operation that does not write to the arrays of the arguments keeps the samplers, the values, and weights already divided by their sum. -/
theorem step_frame (W : World K α) (op : Op K α) (v : Arg (Val α)) (w : Option (Arg K)) (hop : ¬ WritesTo v w op) :
    (∀ (i : Nat) c, W.samplers[i]? = some c → (step W op).1.samplers[i]? = some c) ∧
    (∀ (r : Nat) l, v = .array r → W.values[r]? = some l → (step W op).1.values[r]? = some l) ∧
    (∀ (r : Nat) l, w = some (.array r) → W.floats[r]? = some l → normalise l = l → (step W op).1.floats[r]? = some l) := by
  have happ : ∀ {β : Type} (L : List β) (x : β) (i : Nat) (c : β), L[i]? = some c → (L ++ [x])[i]? = some c := by
    intro β L x i c h
    rw [List.getElem?_append_left (List.getElem?_eq_some_iff.1 h).1]; exact h
  unfold step
  split
  · exact ⟨fun i c h => h, fun r l _ h => h, fun r l _ h _ => h⟩
  cases op with
  | floats l => exact ⟨fun i c h => h, fun r l _ h => h, fun r l _ h _ => happ _ _ _ _ h⟩
  | values l => exact ⟨fun i c h => h, fun r l _ h => happ _ _ _ _ h, fun r l _ h _ => h⟩
  | writeFloat r i x =>
    refine ⟨fun i c h => h, fun r l _ h => h, fun r' l hw h _ => ?_⟩
    show (W.floats.set r _)[r']? = _
    rw [List.getElem?_set_ne]
    · exact h
    · rintro rfl; exact hop hw
  | writeValue r i x =>
    refine ⟨fun i c h => h, fun r' l hv h => ?_, fun r l _ h _ => h⟩
    show (W.values.set r _)[r']? = _
    rw [List.getElem?_set_ne]
    · exact h
    · rintro rfl; exact hop hv
  | build v' w' =>
    dsimp only
    cases hb : build W v' w' with
    | error e => exact ⟨fun i c h => h, fun r l _ h => h, fun r l _ h _ => h⟩
    | ok W' =>
      obtain ⟨h1, ⟨c, h2, -⟩, h3⟩ := build_arrays hb
      refine ⟨fun i c' h => ?_, fun r l _ h => ?_, fun r l _ h hl => ?_⟩
      · show W'.samplers[i]? = _
        rw [h2]; exact happ _ _ _ _ h
      · show W'.values[r]? = _
        rw [h1]; exact h
      · rcases h3 r l h with h4 | ⟨-, h4⟩
        · exact h4
        · rw [hl] at h4; exact h4

/-- **C134** (histories). After a sampler has been built, it keeps its values and weights whatever is done (further samplers may be built from the same arrays), as long as
the caller does not assign to the arrays it was built from. -/
theorem C134_history_partial (W : World K α) (v : Arg (Val α)) (w : Option (Arg K)) (x : Weights K) (vs : ValueSampler K α) (hn : Named W (.build v w) = true)
    (hx : WeightsNow W w x) (hok : ValueSampler.init (now W.values v) x = .ok vs) (ops : List (Op K α)) (hops : ∀ op ∈ ops, ¬ WritesTo v w op) :
    Shows (run (step W (.build v w)).1 ops) W.samplers.length vs := by
  obtain ⟨c, hc, hs⟩ := ((C134_build W v w x hn hx).1 vs hok).2
  have herr := ((C134_build W v w x hn hx).1 vs hok).1
  obtain ⟨W', hb⟩ : ∃ W', build W v w = .ok W' := by
    cases hb : build W v w with
    | ok W' => exact ⟨W', rfl⟩
    | error e => rw [step_error hn hb] at herr; cases herr
  have h1 : (step W (.build v w)).1 = W' := by rw [step_ok hn hb]
  rw [h1] at hc hs ⊢
  obtain ⟨e1, ⟨c', e2, e3, e4, e5, e6⟩, -⟩ := build_arrays hb
  have hcc : c = c' := by
    rw [e2] at hc
    simpa using hc.symm
  subst hcc
  have key : ∀ (ops : List (Op K α)) (U : World K α), (∀ op ∈ ops, ¬ WritesTo v w op) → U.samplers[W.samplers.length]? = some c →
      (∀ r, v = .array r → ∃ l, U.values[r]? = some l) → (∀ r, w = some (.array r) → ∃ l, U.floats[r]? = some l ∧ normalise l = l) →
      (run U ops).samplers[W.samplers.length]? = some c ∧ (∀ r, v = .array r → (run U ops).values[r]? = U.values[r]?) ∧
      ∀ r, w = some (.array r) → (run U ops).floats[r]? = U.floats[r]? := by
    intro ops
    induction ops with
    | nil => intro U _ h _ _; exact ⟨h, fun _ _ => rfl, fun _ _ => rfl⟩
    | cons op ops ih =>
      intro U ho h hv hw
      obtain ⟨f1, f2, f3⟩ := step_frame U op v w (ho op (by simp))
      obtain ⟨g1, g2, g3⟩ := ih (step U op).1 (fun o h => ho o (List.mem_cons_of_mem _ h)) (f1 _ _ h)
        (by intro r hr; obtain ⟨l, hl⟩ := hv r hr; exact ⟨l, f2 r l hr hl⟩)
        (by intro r hr; obtain ⟨l, hl, hl'⟩ := hw r hr; exact ⟨l, f3 r l hr hl hl', hl'⟩)
      refine ⟨g1, fun r hr => ?_, fun r hr => ?_⟩
      · obtain ⟨l, hl⟩ := hv r hr
        show (run (step U op).1 ops).values[r]? = _
        rw [g2 r hr, f2 r l hr hl, hl]
      · obtain ⟨l, hl, hl'⟩ := hw r hr
        show (run (step U op).1 ops).floats[r]? = _
        rw [g3 r hr, f3 r l hr hl hl', hl]
  have hN : ∀ r, v = .array r → r < W.values.length := by
    rintro r rfl
    simp only [Named, Bool.and_eq_true, decide_eq_true_iff] at hn
    exact hn.1
  have hM : ∀ r, w = some (.array r) → r < W.floats.length := by
    rintro r rfl
    simp only [Named, Bool.and_eq_true, decide_eq_true_iff] at hn
    exact hn.2
  obtain ⟨k1, k2, k3⟩ := key ops W' hops hc
    (by intro r hr; rw [e1]; exact ⟨_, List.getElem?_eq_getElem (hN r hr)⟩)
    (by intro r hr; exact ⟨_, e6 r hr (hM r hr), normalise_twice _⟩)
  refine ⟨c, k1, ?_⟩
  rw [← hs]
  unfold SamplerShare.seen
  have a1 : content (run W' ops).values c.values = content W'.values c.values := by
    rw [e3]
    cases v with
    | list l => rfl
    | array r => show ((run W' ops).values[r]?).getD [] = _; rw [k2 r rfl]; rfl
  have a2 : (c.weights.map fun w => (content (run W' ops).floats w).mapM id) = c.weights.map fun w => (content W'.floats w).mapM id := by
    cases hw : c.weights with
    | none => rfl
    | some s =>
      cases s with
      | own l => rfl
      | shared r =>
        rw [Option.map_some, Option.map_some]
        show some (List.mapM id (((run W' ops).floats[r]?).getD [])) = _
        rw [k3 r (e4 r hw)]
        rfl
  rw [a1, a2]

/-- **C134** (lists). A sampler built from lists keeps its values and weights whatever is done. -/
theorem C134_lists (W : World K α) (l : List (Val α)) (w : Option (List K)) (vs : ValueSampler K α)
    (hok : ValueSampler.init l (match w with | none => .absent | some w => .floats w) = .ok vs) (ops : List (Op K α)) :
    Shows (run (step W (.build (.list l) (w.map .list))).1 ops) W.samplers.length vs := by
  refine C134_history_partial W (.list l) (w.map .list) _ vs ?_ ?_ hok ops ?_
  · cases w <;> rfl
  · cases w <;> rfl
  · intro op _ h
    cases op with
    | writeValue r i x => cases h
    | writeFloat r i x => cases w <;> cases h
    | _ => exact h

/-- **C134** (the caller's arrays). Building a sampler changes no array of values, and no float array but the one given as weights. -/
theorem C134_caller_partial (W : World K α) (v : Arg (Val α)) (w : Option (Arg K)) :
    (step W (.build v w)).1.values = W.values ∧
    ∀ (r : Nat) l, w ≠ some (.array r) → W.floats[r]? = some l → (step W (.build v w)).1.floats[r]? = some l := by
  unfold step
  split
  · exact ⟨rfl, fun r l _ h => h⟩
  dsimp only
  cases hb : build W v w with
  | error e => exact ⟨rfl, fun r l _ h => h⟩
  | ok W' =>
    obtain ⟨h1, -, h3⟩ := build_arrays hb
    refine ⟨h1, fun r l hne h => ?_⟩
    rcases h3 r l h with h4 | ⟨h4, -⟩
    · exact h4
    · exact absurd h4 hne

/-- **C134** fails for the weights: building a sampler with the caller's weights 2 and 6 turns the caller's array into 1/4 and 3/4. -/
theorem C134_weights_counterexample : ∃ (W : World ℚ Nat) (l : List (Option ℚ)),
    W.floats[0]? = some [some 2, some 6] ∧ (step W (.build (.list [.scalar 1, .scalar 2]) (some (.array 0)))).2 = none ∧
    (step W (.build (.list [.scalar 1, .scalar 2]) (some (.array 0)))).1.floats[0]? = some l ∧ l = [some (1 / 4), some (3 / 4)] := by
  refine ⟨⟨[[some 2, some 6]], [], []⟩, [some (1 / 4), some (3 / 4)], rfl, ?_, ?_, rfl⟩
  · decide +kernel
  · decide +kernel

/-- **C134** fails when the caller goes on using its arrays: after an assignment to the weights array every `compute` of the sampler raises `ValueError`; after an
assignment to the values array it returns the new value. -/
theorem C134_write_counterexample (GI : IntGen ρ) (G : UnitGen ρ ℚ) (nd : PNode Nat σ) (r : ρ) (s : GState Nat) :
    ∃ (W : World ℚ Nat) (c : Sampler ℚ Nat) (vs : ValueSampler ℚ Nat), ValueSampler.init [.scalar 1, .scalar 2] (.floats [1, 1]) = .ok vs ∧
      Shows W 0 vs ∧ W.samplers[0]? = some c ∧
      (SamplerShare.seen (step W (.writeFloat 0 0 5)).1 c).compute GI G nd r s = (r, s, .error .valueError) ∧
      (SamplerShare.seen (step W (.writeValue 0 1 (.scalar 7))).1 c).values = [.scalar 1, .scalar 7] := by
  refine ⟨⟨[[some (1 / 2), some (1 / 2)]], [[.scalar 1, .scalar 2]], [⟨.shared 0, some (.shared 0)⟩]⟩, ⟨.shared 0, some (.shared 0)⟩,
    ⟨[.scalar 1, .scalar 2], some (some [1 / 2, 1 / 2])⟩, ?_, ⟨_, rfl, ?_⟩, rfl, ?_, ?_⟩
  · unfold ValueSampler.init
    norm_num
  · rfl
  · have hv : (SamplerShare.seen (step (⟨[[some (1 / 2), some (1 / 2)]], [[.scalar 1, .scalar 2]], [⟨.shared 0, some (.shared 0)⟩]⟩ : World ℚ Nat) (.writeFloat 0 0 5)).1
        ⟨.shared 0, some (.shared 0)⟩) = ⟨[.scalar 1, .scalar 2], some (some [5, 1 / 2])⟩ := rfl
    rw [hv]
    unfold ValueSampler.compute choiceInds
    norm_num
  · rfl

/-- The hypotheses of the positive theorems are met: a sampler from the caller's weights 2 and 6, another one built from the same array, and an unrelated array. -/
example : Shows (run (step (⟨[[some 2, some 6]], [], []⟩ : World ℚ Nat) (.build (.list [.scalar 1, .scalar 2]) (some (.array 0)))).1
    [.build (.list [.scalar 5, .scalar 8]) (some (.array 0)), .floats [1], .writeFloat 1 0 3]) 0 ⟨[.scalar 1, .scalar 2], some (some [1 / 4, 3 / 4])⟩ := by
  have hok : ValueSampler.init [(.scalar 1 : Val Nat), .scalar 2] (.floats [(2 : ℚ), 6]) = .ok ⟨[.scalar 1, .scalar 2], some (some [1 / 4, 3 / 4])⟩ := by
    unfold ValueSampler.init; norm_num
  refine C134_history_partial (⟨[[some 2, some 6]], [], []⟩ : World ℚ Nat) (.list [.scalar 1, .scalar 2]) (some (.array 0)) (.floats [2, 6]) _ rfl ⟨[2, 6], rfl, rfl⟩ hok _ ?_
  intro op hop
  simp only [List.mem_cons, List.not_mem_nil, or_false] at hop
  rcases hop with rfl | rfl | rfl
  · exact fun h => h
  · exact fun h => h
  · intro h; cases h

end LCL.SamplerShareProps
