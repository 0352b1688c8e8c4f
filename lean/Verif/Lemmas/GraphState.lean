import Verif.Spec.GraphState

/-! Helper lemmas for the `GraphState` properties. -/

namespace LCL.GraphLemmas
open LCL LCL.GraphSpec
variable {α : Type}

/-- Direct lookup. -/
def look (s : GState α) (n p : Name) : Option (Val α) := (s.states.get? n).bind (·.get? p)

/-- Fixed set of a node. -/
def fixedOf (s : GState α) (n : Name) : List Name := (s.fixed.get? n).getD []

/-- Shape invariant of `states` alone. -/
structure Shape (s : GState α) : Prop where
  pos : 1 ≤ s.numSamples
  nodes : s.states.keys.Nodup
  vars : ∀ n d, s.states.get? n = some d → d.keys.Nodup
  dotN : ∀ n, n ∈ s.states.keys → hasDot n = false
  dotV : ∀ n d, s.states.get? n = some d → ∀ p ∈ d.keys, hasDot p = false
  rows : s.numSamples ≠ 1 → ∀ n p v, look s n p = some v → ∃ l, v = .arr l ∧ l.length = s.numSamples

/-- Invariant of every reachable state. -/
structure WF (s : GState α) : Prop extends Shape s where
  fkeys : ∀ n, n ∈ s.fixed.keys ↔ n ∈ s.states.keys
  fsub : ∀ n p, p ∈ fixedOf s n → ∃ v, look s n p = some v

theorem hasDot_iff (s : Name) : hasDot s = true ↔ '.' ∈ s := by simp [hasDot]
theorem hasDot_false_iff (s : Name) : hasDot s = false ↔ '.' ∉ s := by simp [hasDot]

theorem init_wf {n : Int} {s : GState α} (h : GState.init n = .ok s) : WF s := by
  unfold GState.init at h
  split at h
  · cases h
  · cases h
    refine ⟨⟨?_, ?_, ?_, ?_, ?_, ?_⟩, ?_, ?_⟩ <;> simp [look, fixedOf]
    omega

theorem init_numSamples {n : Int} {s : GState α} (h : GState.init n = .ok s) :
    (s.numSamples : Int) = n := by
  unfold GState.init at h
  split at h
  · cases h
  · cases h; simp; omega

theorem normalise_ok_iff (n : Nat) (v w : Val α) :
    GState.normalise n v = .ok w ↔ storedAs n v w := by
  unfold GState.normalise storedAs
  by_cases h : n = 1
  · simp [h, eq_comm]
  · simp only [h, if_false, false_and, ne_eq, not_false_eq_true, true_and, false_or]
    cases v with
    | none => simp
    | scalar a =>
      constructor
      · intro e; cases e
        exact ⟨_, rfl, by simp, Or.inr ⟨a, rfl, fun r hr => (List.mem_replicate.1 hr).2⟩⟩
      · rintro ⟨rows, rfl, hl, h1 | ⟨b, hb, hr⟩⟩
        · cases h1
        · cases hb
          have : rows = List.replicate n (.scalar a) := List.eq_replicate_iff.2 ⟨hl, hr⟩
          rw [this]
    | arr l =>
      by_cases hl : l.length = n
      · simp only [hl, not_true_eq_false, if_false, Except.ok.injEq]
        constructor
        · intro e; exact ⟨l, e.symm, hl, Or.inl rfl⟩
        · rintro ⟨rows, rfl, _, h1 | ⟨b, hb, _⟩⟩
          · cases h1; rfl
          · cases hb
      · simp only [hl, not_false_eq_true, if_true]
        constructor
        · intro e; cases e
        · rintro ⟨rows, rfl, h2, h1 | ⟨b, hb, _⟩⟩
          · cases h1; exact absurd h2 hl
          · cases hb

theorem normalise_error {n : Nat} {v : Val α} {e} (h : GState.normalise n v = .error e) :
    ¬ ∃ w, storedAs n v w := by
  rintro ⟨w, hw⟩; rw [← normalise_ok_iff, h] at hw; cases hw

theorem normalise_rows {n : Nat} {v w : Val α} (hn : n ≠ 1) (h : GState.normalise n v = .ok w) :
    ∃ l, w = .arr l ∧ l.length = n := by
  rw [normalise_ok_iff] at h
  rcases h with ⟨h, _⟩ | ⟨_, l, h1, h2, _⟩
  · exact absurd h hn
  · exact ⟨l, h1, h2⟩

/-- The state after `set` has registered the node. -/
abbrev touch (s : GState α) (n : Name) : GState α := s.register n

theorem touch_num (s : GState α) (n : Name) :
    (touch s n).numSamples = s.numSamples ∧ (touch s n).numParams = s.numParams := by
  unfold touch GState.register; split <;> simp

theorem touch_look (s : GState α) (n n' p : Name) : look (touch s n) n' p = look s n' p := by
  unfold touch GState.register; split
  · rfl
  · rename_i h
    have h0 : s.states.get? n = none := by
      rw [Dict.get?_eq_none_iff, ← Dict.has_eq_false_iff]; simpa using h
    simp only [look, Dict.get?_set]
    by_cases e : n = n'
    · subst e; simp [h0]
    · simp [e]

theorem touch_get (s : GState α) (n : Name) : ∃ d, (touch s n).states.get? n = some d := by
  unfold touch GState.register; split
  · rename_i h; unfold Dict.has at h; exact Option.isSome_iff_exists.1 h
  · exact ⟨[], by simp⟩

theorem touch_fixedOf (s : GState α) (n n' : Name) (hs : WF s) :
    fixedOf (touch s n) n' = fixedOf s n' := by
  unfold touch GState.register; split
  · rfl
  · rename_i h
    have h0 : n ∉ s.states.keys := by rw [← Dict.has_eq_false_iff]; simpa using h
    have h1 : s.fixed.get? n = none := by rw [Dict.get?_eq_none_iff, hs.fkeys]; exact h0
    simp only [fixedOf, Dict.get?_set]
    by_cases e : n = n'
    · subst e; simp [h1]
    · simp [e]

theorem touch_keys (s : GState α) (n m : Name) :
    m ∈ (touch s n).states.keys ↔ m = n ∨ m ∈ s.states.keys := by
  unfold touch GState.register; split
  · rename_i h; rw [Dict.has_iff] at h
    constructor
    · exact Or.inr
    · rintro (rfl | h') <;> assumption
  · simp [Dict.mem_keys_set]

theorem touch_wf (s : GState α) (n : Name) (hs : WF s) (hn : hasDot n = false) : WF (touch s n) := by
  have hk := touch_keys s n
  refine ⟨⟨?_, ?_, ?_, ?_, ?_, ?_⟩, ?_, ?_⟩
  · rw [(touch_num s n).1]; exact hs.pos
  · unfold touch GState.register; split
    · exact hs.nodes
    · exact Dict.nodup_set hs.nodes _ _
  · intro m d h
    unfold touch GState.register at h; split at h
    · exact hs.vars m d h
    · simp only [Dict.get?_set] at h
      split at h
      · cases h; simp
      · exact hs.vars m d h
  · intro m hm
    rcases (hk m).1 hm with rfl | h
    · exact hn
    · exact hs.dotN m h
  · intro m d h
    unfold touch GState.register at h; split at h
    · exact hs.dotV m d h
    · simp only [Dict.get?_set] at h
      split at h
      · cases h; simp
      · exact hs.dotV m d h
  · intro h m p v hv
    rw [(touch_num s n).1] at h ⊢
    rw [touch_look] at hv
    exact hs.rows h m p v hv
  · intro m
    rw [hk]
    unfold touch GState.register; split
    · rename_i h; rw [Dict.has_iff] at h
      rw [hs.fkeys]
      constructor
      · exact Or.inr
      · rintro (rfl | h') <;> assumption
    · simp [Dict.mem_keys_set, hs.fkeys]
  · intro m p h
    rw [touch_fixedOf s n m hs] at h
    obtain ⟨v, hv⟩ := hs.fsub m p h
    exact ⟨v, by rw [touch_look]; exact hv⟩

/-- Explicit form of `set` on a well-formed state. -/
theorem set_eq (s : GState α) (hs : WF s) (n p : Name) (v : Val α) (fx : Bool) :
    s.set n p v fx =
      if hasDot n || hasDot p then (s, some .valueError)
      else if p ∈ fixedOf s n then (s, none)
      else
        let c := if (look s n p).isSome then s.numParams else s.numParams + 1
        let t : GState α := { touch s n with numParams := c }
        match GState.normalise s.numSamples v with
        | .error e => (t, some e)
        | .ok w =>
          ({ t with states := t.states.set n ((((touch s n).states.get? n).getD []).set p w),
                    fixed := if fx then t.fixed.set n (fixedOf s n ++ [p]) else t.fixed }, none) := by
  by_cases hd : (hasDot n || hasDot p) = true
  · simp [GState.set, hd]
  · have hn : hasDot n = false := by
      simp only [Bool.or_eq_true, not_or, Bool.not_eq_true] at hd; exact hd.1
    have hd' : (hasDot n || hasDot p) = false := by simpa using hd
    have hw := touch_wf s n hs hn
    unfold GState.set
    simp only [hd', Bool.false_eq_true, if_false]
    obtain ⟨d, hdd⟩ := touch_get s n
    have hlook : look s n p = Dict.get? d p := by
      rw [← touch_look s n n p]; simp [look, hdd]
    have hc : (touch s n).countVar n p =
        { touch s n with numParams := if (look s n p).isSome then s.numParams else s.numParams + 1 } := by
      unfold GState.countVar
      rw [hdd, hlook]; simp only [Option.getD_some, Dict.has]
      by_cases h : (Dict.get? d p).isSome = true
      · simp only [h, if_true]; rw [← (touch_num s n).2]
      · simp only [h]; rw [← (touch_num s n).2]; rfl
    simp only [touch] at hc; simp only [hc]
    have hf : ∃ f, (touch s n).fixed.get? n = some f := by
      have : n ∈ (touch s n).fixed.keys := (hw.fkeys n).2 ((touch_keys s n n).2 (Or.inl rfl))
      rw [← Dict.has_iff] at this
      exact Option.isSome_iff_exists.1 this
    obtain ⟨f, hf⟩ := hf
    have hff : fixedOf s n = f := by rw [← touch_fixedOf s n n hs]; simp [fixedOf, hf]
    simp only [hf, hff]
    by_cases hp : p ∈ f
    · simp only [hp, if_true]
      have : p ∈ fixedOf s n := hff ▸ hp
      obtain ⟨w, hw'⟩ := hs.fsub n p this
      have hh : s.states.has n = true := by
        unfold look at hw'; unfold Dict.has
        cases h : s.states.get? n with
        | none => simp [h] at hw'
        | some _ => rfl
      have ht : touch s n = s := by simp [touch, GState.register, hh]
      simp [hw', ht]
    · simp only [hp, if_false, (touch_num s n).1]
      cases GState.normalise s.numSamples v with
      | error e => rfl
      | ok w => cases fx <;> rfl

theorem look_set_node (s : GState α) (n p n' p' : Name) (d : Dict Name (Val α)) (w : Val α)
    (hd : (s.states.get? n).getD [] = d) (c : Nat) (f) :
    look ({ s with states := s.states.set n (d.set p w), numParams := c, fixed := f } : GState α) n' p'
      = if n = n' ∧ p = p' then some w else look s n' p' := by
  simp only [look, Dict.get?_set]
  by_cases h1 : n = n'
  · subst h1
    by_cases h2 : p = p'
    · subst h2; simp
    · simp only [if_true, Option.bind_some, Dict.get?_set, h2, if_false, and_false]
      cases h : s.states.get? n with
      | none => simp [h] at hd; subst hd; simp
      | some e => simp [h] at hd; subst hd; simp
  · simp [h1]

/-- Effect of `set` on every lookup and on every fixed set. -/
theorem set_effect (s : GState α) (hs : WF s) (n p : Name) (v : Val α) (fx : Bool) :
    WF (s.set n p v fx).1 ∧ (s.set n p v fx).1.numSamples = s.numSamples ∧
    (((hasDot n || hasDot p) = true ∨ p ∈ fixedOf s n ∨ (∃ e, GState.normalise s.numSamples v = .error e)) ∧
        (∀ n' p', look (s.set n p v fx).1 n' p' = look s n' p') ∧
        (∀ n', fixedOf (s.set n p v fx).1 n' = fixedOf s n') ∨
     ((hasDot n || hasDot p) = false ∧ p ∉ fixedOf s n ∧ ∃ w, GState.normalise s.numSamples v = .ok w ∧
        (∀ n' p', look (s.set n p v fx).1 n' p' = if n = n' ∧ p = p' then some w else look s n' p') ∧
        (∀ n', fixedOf (s.set n p v fx).1 n' =
          if fx = true ∧ n = n' then fixedOf s n ++ [p] else fixedOf s n'))) := by
  rw [set_eq s hs]
  by_cases hd : (hasDot n || hasDot p) = true
  · simp only [hd, if_true, true_or, true_and]
    exact ⟨hs, Or.inl ⟨by simp, by simp⟩⟩
  · have hd' : (hasDot n || hasDot p) = false := by simpa using hd
    have hn : hasDot n = false := by
      simp only [Bool.or_eq_true, not_or, Bool.not_eq_true] at hd; exact hd.1
    have hp : hasDot p = false := by
      simp only [Bool.or_eq_true, not_or, Bool.not_eq_true] at hd; exact hd.2
    simp only [hd', Bool.false_eq_true, if_false, false_or]
    by_cases hf : p ∈ fixedOf s n
    · simp only [hf, if_true]
      exact ⟨hs, trivial, Or.inl ⟨by simp, by simp, by simp⟩⟩
    · simp only [hf, if_false]
      have hw := touch_wf s n hs hn
      cases hv : GState.normalise s.numSamples v with
      | error e =>
        simp only
        refine ⟨⟨⟨hw.pos, hw.nodes, hw.vars, hw.dotN, hw.dotV, ?_⟩, hw.fkeys, ?_⟩, (touch_num s n).1, Or.inl ⟨Or.inr ⟨e, rfl⟩, ?_, ?_⟩⟩
        · exact hw.rows
        · exact hw.fsub
        · intro n' p'; exact touch_look s n n' p'
        · intro n'; exact touch_fixedOf s n n' hs
      | ok w =>
        simp only
        set_option linter.unusedSimpArgs false in
        obtain ⟨d, hdd⟩ := touch_get s n
        have hlook : ∀ c f n' p', look ({ touch s n with
              states := (touch s n).states.set n ((((touch s n).states.get? n).getD []).set p w),
              numParams := c, fixed := f } : GState α) n' p' =
            if n = n' ∧ p = p' then some w else look s n' p' := by
          intro c f n' p'
          rw [look_set_node (touch s n) n p n' p' _ w rfl, touch_look]
        have hfix : ∀ c st n', fixedOf ({ touch s n with
              states := st,
              numParams := c, fixed := if fx then (touch s n).fixed.set n (fixedOf s n ++ [p]) else (touch s n).fixed } : GState α) n' =
            if fx = true ∧ n = n' then fixedOf s n ++ [p] else fixedOf s n' := by
          intro c st n'
          cases fx
          · simp only [Bool.false_eq_true, if_false, false_and]; exact touch_fixedOf s n n' hs
          · simp only [if_true, true_and]
            by_cases e : n = n'
            · subst e; simp [fixedOf]
            · have := touch_fixedOf s n n' hs
              simp only [fixedOf, Dict.get?_set, e, if_false] at this ⊢; exact this
        have hkeys : ∀ m, m ∈ Dict.keys ((touch s n).states.set n ((((touch s n).states.get? n).getD []).set p w)) ↔
            m ∈ (touch s n).states.keys := by
          intro m
          rw [Dict.mem_keys_set]
          constructor
          · rintro (rfl | h)
            · exact (touch_keys s _ _).2 (Or.inl rfl)
            · exact h
          · exact Or.inr
        refine ⟨⟨⟨hw.pos, Dict.nodup_set hw.nodes _ _, ?_, ?_, ?_, ?_⟩, ?_, ?_⟩, (touch_num s n).1, Or.inr ⟨trivial, by simp, ?_⟩⟩
        · intro m e h
          simp only [Dict.get?_set] at h
          split at h
          · cases h
            apply Dict.nodup_set
            rw [hdd]; exact hw.vars n d hdd
          · exact hw.vars m e h
        · intro m hm; exact hw.dotN m ((hkeys m).1 hm)
        · intro m e h q hq
          simp only [Dict.get?_set] at h
          split at h
          · cases h
            rw [Dict.mem_keys_set, hdd] at hq
            rcases hq with rfl | hq
            · exact hp
            · exact hw.dotV n d hdd q hq
          · exact hw.dotV m e h q hq
        · intro h1 m q u hu
          change (touch s n).numSamples ≠ 1 at h1
          rw [hlook] at hu
          change ∃ l, u = .arr l ∧ l.length = (touch s n).numSamples
          rw [(touch_num s n).1] at h1 ⊢
          split at hu
          · cases hu; exact normalise_rows h1 hv
          · exact hs.rows h1 m q u hu
        · intro m
          change m ∈ Dict.keys (if fx then (touch s n).fixed.set n (fixedOf s n ++ [p]) else (touch s n).fixed) ↔ _
          change _ ↔ m ∈ Dict.keys ((touch s n).states.set n ((((touch s n).states.get? n).getD []).set p w))
          rw [hkeys]
          cases fx
          · exact hw.fkeys m
          · simp only [if_true, Dict.mem_keys_set, hw.fkeys]
            constructor
            · rintro (rfl | h)
              · exact (touch_keys s _ _).2 (Or.inl rfl)
              · exact h
            · exact Or.inr
        · intro m q h
          rw [hfix] at h
          rw [hlook]
          by_cases e : n = m ∧ p = q
          · exact ⟨w, by simp [e]⟩
          · simp only [e, if_false]
            split at h
            · rename_i h2
              obtain ⟨_, rfl⟩ := h2
              rcases List.mem_append.1 h with h | h
              · exact hs.fsub _ q h
              · simp at h; exact absurd ⟨rfl, h.symm⟩ e
            · exact hs.fsub m q h
        · exact ⟨w, rfl, fun n' p' => hlook _ _ n' p', fun n' => hfix _ _ n'⟩

theorem set_error_iff (s : GState α) (hs : WF s) (n p : Name) (v : Val α) (fx : Bool) :
    (s.set n p v fx).2 = none ↔
      (hasDot n || hasDot p) = false ∧ (p ∈ fixedOf s n ∨ ∃ w, GState.normalise s.numSamples v = .ok w) := by
  rw [set_eq s hs]
  by_cases hd : (hasDot n || hasDot p) = true
  · simp [hd]
  · have hd' : (hasDot n || hasDot p) = false := by simpa using hd
    simp only [hd', Bool.false_eq_true, if_false, true_and]
    by_cases hf : p ∈ fixedOf s n
    · simp [hf]
    · simp only [hf, if_false, false_or]
      cases GState.normalise s.numSamples v <;> simp

theorem setAll_wf (vars : List (Name × Val α)) (s : GState α) (hs : WF s) (n : Name) (fx : Bool) :
    WF (s.setAll n fx vars).1 ∧ (s.setAll n fx vars).1.numSamples = s.numSamples := by
  induction vars generalizing s with
  | nil => exact ⟨hs, rfl⟩
  | cons q rest ih =>
    obtain ⟨p, v⟩ := q
    have h := set_effect s hs n p v fx
    unfold GState.setAll
    rcases hr : s.set n p v fx with ⟨s', e⟩
    rw [hr] at h
    cases e with
    | none => simp only; have := ih s' h.1; exact ⟨this.1, this.2.trans h.2.1⟩
    | some e => exact ⟨h.1, h.2.1⟩

theorem setNested_wf (st : List (Name × Dict Name (Val α))) (s : GState α) (hs : WF s) (fx : Bool) :
    WF (s.setNested fx st).1 ∧ (s.setNested fx st).1.numSamples = s.numSamples := by
  induction st generalizing s with
  | nil => exact ⟨hs, rfl⟩
  | cons q rest ih =>
    obtain ⟨n, vars⟩ := q
    have h := setAll_wf vars s hs n fx
    unfold GState.setNested
    rcases hr : s.setAll n fx vars with ⟨s', e⟩
    rw [hr] at h
    cases e with
    | none => simp only; have := ih s' h.1; exact ⟨this.1, this.2.trans h.2⟩
    | some e => exact h

theorem update_wf (s : GState α) (hs : WF s) (a : GState.UpdateArg α) (fx : Bool) :
    WF (s.update a fx).1 ∧ (s.update a fx).1.numSamples = s.numSamples := by
  cases a with
  | graph g =>
    unfold GState.update; simp only
    split
    · exact ⟨hs, rfl⟩
    · exact setNested_wf _ s hs fx
  | nested d => exact setNested_wf _ s hs fx

theorem step_wf (s : GState α) (hs : WF s) (op : Op α) :
    WF (step s op) ∧ (step s op).numSamples = s.numSamples := by
  cases op with
  | set n p v f => have := set_effect s hs n p v f; exact ⟨this.1, this.2.1⟩
  | update a f => exact update_wf s hs a f

theorem run_wf (ops : List (Op α)) (s : GState α) (hs : WF s) :
    WF (run s ops) ∧ (run s ops).numSamples = s.numSamples := by
  induction ops generalizing s with
  | nil => exact ⟨hs, rfl⟩
  | cons op ops ih =>
    have h := step_wf s hs op
    have := ih (step s op) h.1
    exact ⟨this.1, this.2.trans h.2⟩

theorem reachable_wf {s : GState α} (h : Reachable s) : WF s := by
  obtain ⟨n, s0, ops, h0, rfl⟩ := h
  exact (run_wf ops s0 (init_wf h0)).1

/-- The public read is the direct lookup. -/
theorem read_eq (s : GState α) (hs : Shape s) (n p : Name) : readParam s n p =
    if hasDot n || hasDot p then none else look s n p := by
  have hdot := hasDot_join n p
  have hnone : s.states.get? (n ++ '.' :: p) = none := by
    rw [Dict.get?_eq_none_iff]; intro h
    have := hs.dotN _ h; rw [hdot] at this; cases this
  unfold readParam GState.getItem
  simp only [hnone, hdot, if_true]
  by_cases hd : (hasDot n || hasDot p) = true
  · simp only [hd, if_true]
    split
    · rename_i v heq
      split at heq
      · rename_i a b hab
        have := splitDot_two hab
        exfalso
        -- a ++ '.' :: b = n ++ '.' :: p with a, b dot-free forces n = a
        have key : ∀ (a n : Name), hasDot a = false → hasDot b = false →
            n ++ '.' :: p = a ++ '.' :: b → (hasDot n || hasDot p) = false := by
          intro a
          induction a with
          | nil =>
            intro n _ hb e
            cases n with
            | nil => simp at e; subst e; simpa [hasDot] using hb
            | cons c n =>
              simp only [List.cons_append, List.nil_append, List.cons.injEq] at e
              have := hasDot_join n p
              rw [e.2, hb] at this; cases this
          | cons c a ih =>
            intro n ha hb e
            rw [hasDot_cons, Bool.or_eq_false_iff] at ha
            cases n with
            | nil =>
              simp only [List.nil_append, List.cons_append, List.cons.injEq] at e
              have h1 := ha.1; simp [← e.1] at h1
            | cons c' n =>
              simp only [List.cons_append, List.cons.injEq] at e
              obtain ⟨rfl, e⟩ := e
              have h3 := ih n ha.2 hb e
              rw [hasDot_cons, ha.1, Bool.false_or]; exact h3
        rw [key a n this.2.1 this.2.2 this.1] at hd; cases hd
      · cases heq
    · rfl
  · have hd' : (hasDot n || hasDot p) = false := by simpa using hd
    simp only [hd', Bool.false_eq_true, if_false]
    rw [Bool.or_eq_false_iff] at hd'
    rw [splitDot_join hd'.1 hd'.2]
    simp only [look]
    cases s.states.get? n with
    | none => rfl
    | some d =>
      simp only [Option.bind_some]
      cases h : Dict.get? d p <;> simp

theorem look_dotfree {s : GState α} (hs : Shape s) {n p : Name} {v : Val α} (h : look s n p = some v) :
    hasDot n = false ∧ hasDot p = false := by
  unfold look at h
  cases hd : s.states.get? n with
  | none => simp [hd] at h
  | some d =>
    simp only [hd, Option.bind_some] at h
    constructor
    · apply hs.dotN
      rw [← Dict.has_iff]; simp [Dict.has, hd]
    · apply hs.dotV n d hd
      rw [← Dict.has_iff]; simp [Dict.has, h]

theorem read_eq_look (s : GState α) (hs : Shape s) (n p : Name) : readParam s n p = look s n p := by
  rw [read_eq s hs]
  split
  · rename_i h
    cases hl : look s n p with
    | none => rfl
    | some v =>
      have := look_dotfree hs hl
      simp [this.1, this.2] at h
  · rfl

end LCL.GraphLemmas
