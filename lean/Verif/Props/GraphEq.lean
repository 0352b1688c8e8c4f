import Verif.Model.GraphEq
import Verif.Props.GraphState1
import Verif.Props.GraphState2
import Mathlib.Tactic.NormNum
import Mathlib.Tactic.Positivity
import Mathlib.Tactic.Linarith
import Mathlib.Data.List.Perm.Subperm

/-!
# C120, C121: equality of states, and states kept in files
-/

namespace LCL.GraphEqProps
open LCL LCL.GraphSpec LCL.GraphLemmas
variable {α : Type}

/-- What equality is to mean: the same number of samples, the same nodes and parameters with close values, the same parameters fixed. -/
structure SameState (close : Val α → Val α → Prop) (s t : GState α) : Prop where
  samples : s.numSamples = t.numSamples
  nodes : ∀ n, n ∈ s.states.keys ↔ n ∈ t.states.keys
  values : ∀ n p, (readParam s n p = none ∧ readParam t n p = none) ∨ ∃ v v', readParam s n p = some v ∧ readParam t n p = some v' ∧ close v v'
  fixed : ∀ n p, isFixed s n p ↔ isFixed t n p

theorem varsEq_true (close : Val α → Val α → Except Err Bool) (other : Dict Name (Val α)) : ∀ l : List (Name × Val α),
    GState.varsEq close other l = .ok true ↔ ∀ q ∈ l, ∃ v', other.get? q.1 = some v' ∧ close q.2 v' = .ok true
  | [] => by simp [GState.varsEq]
  | (k, v) :: l => by
    have ih := varsEq_true close other l
    unfold GState.varsEq
    cases h : other.get? k with
    | none => simp [h]
    | some v' =>
      cases hc : close v v' with
      | error e => simp [h, hc]
      | ok b => cases b <;> simp [h, hc, ih]

theorem nodesEq_true (close : Val α → Val α → Except Err Bool) (other : Dict Name (Dict Name (Val α))) : ∀ l : List (Name × Dict Name (Val α)),
    GState.nodesEq close other l = .ok true ↔ ∀ q ∈ l, ∃ d', other.get? q.1 = some d' ∧ q.2.length = d'.length ∧ GState.varsEq close d' q.2 = .ok true
  | [] => by simp [GState.nodesEq]
  | (k, d) :: l => by
    have ih := nodesEq_true close other l
    unfold GState.nodesEq
    cases h : other.get? k with
    | none => simp [h]
    | some d' =>
      by_cases hl : d.length = d'.length
      · simp only [hl, ne_eq, not_true_eq_false, if_false]
        cases hc : GState.varsEq close d' d with
        | error e => simp [h, hc]
        | ok b => cases b <;> simp [h, hc, ih, hl]
      · simp [h, hl]

theorem fixedEq_true (f g : Dict Name (List Name)) :
    GState.fixedEq f g = true ↔ (∀ n, n ∈ f.keys ↔ n ∈ g.keys) ∧ ∀ n a b, f.get? n = some a → g.get? n = some b → ∀ x, x ∈ a ↔ x ∈ b := by
  unfold GState.fixedEq
  rw [Bool.and_eq_true, List.all_eq_true, List.all_eq_true]
  have hmem : ∀ (d : Dict Name (List Name)) n, n ∈ d.keys ↔ ∃ a, d.get? n = some a := by
    intro d n
    rw [← Dict.has_iff]; unfold Dict.has; rw [Option.isSome_iff_exists]
  constructor
  · rintro ⟨h1, h2⟩
    refine ⟨fun n => ⟨fun hn => ?_, fun hn => (Dict.has_iff f n).1 (h2 n hn)⟩, ?_⟩
    · have := h1 n hn
      cases hg : g.get? n with
      | none => rw [hg] at this; split at this <;> simp_all
      | some b => exact (hmem g n).2 ⟨b, hg⟩
    · intro n a b ha hb x
      have := h1 n ((hmem f n).2 ⟨a, ha⟩)
      rw [ha, hb] at this
      simp only [Bool.and_eq_true, List.all_eq_true, List.contains_iff_mem] at this
      exact ⟨this.1 x, this.2 x⟩
  · rintro ⟨h1, h2⟩
    refine ⟨fun n hn => ?_, fun n hn => (Dict.has_iff f n).2 ((h1 n).2 hn)⟩
    obtain ⟨a, ha⟩ := (hmem f n).1 hn
    obtain ⟨b, hb⟩ := (hmem g n).1 ((h1 n).1 hn)
    rw [ha, hb]
    simp only [Bool.and_eq_true, List.all_eq_true, List.contains_iff_mem]
    exact ⟨fun x hx => (h2 n a b ha hb x).1 hx, fun x hx => (h2 n a b ha hb x).2 hx⟩

/-- Two lists of distinct keys, one contained in the other and of the same length, have the same members. -/
theorem same_members {a b : List Name} (ha : a.Nodup) (hl : a.length = b.length) (hsub : ∀ x ∈ a, x ∈ b) (x : Name) : x ∈ a ↔ x ∈ b :=
  (((ha.subperm hsub).perm_of_length_le (by omega)).mem_iff)

theorem keys_length {ν : Type} (d : Dict Name ν) : d.keys.length = d.length := by unfold Dict.keys; simp

theorem isFixed_iff {s : GState α} (n p : Name) : isFixed s n p ↔ p ∈ fixedOf s n := by
  unfold isFixed fixedOf
  cases s.fixed.get? n with
  | none => simp
  | some f => simp

/-- Equality of well-formed states. -/
theorem eq_iff {close : Val α → Val α → Except Err Bool} {s t : GState α} (hs : WF s) (ht : WF t) :
    GState.eq close s t = .ok true ↔ SameState (fun v v' => close v v' = .ok true) s t := by
  have hr : ∀ n p, readParam s n p = look s n p := read_eq_look s hs.toShape
  have hr' : ∀ n p, readParam t n p = look t n p := read_eq_look t ht.toShape
  have hmem : ∀ {ν : Type} (d : Dict Name ν) n, n ∈ d.keys ↔ ∃ a, d.get? n = some a := by
    intro ν d n
    rw [← Dict.has_iff]; unfold Dict.has; rw [Option.isSome_iff_exists]
  have hfix : ∀ {s : GState α}, WF s → ∀ n, n ∈ s.states.keys → s.fixed.get? n = some (fixedOf s n) := by
    intro s hs n hn
    obtain ⟨a, ha⟩ := (hmem s.fixed n).1 ((hs.fkeys n).2 hn)
    simp [fixedOf, ha]
  constructor
  · intro h
    unfold GState.eq at h
    split at h
    · cases h
    rename_i h1
    split at h
    · cases h
    rename_i h2
    split at h
    · cases h
    · cases h
    rename_i h3
    push Not at h1 h2
    rw [nodesEq_true] at h3
    have hf : GState.fixedEq s.fixed t.fixed = true := Except.ok.inj h
    rw [fixedEq_true] at hf
    have hnodes : ∀ n, n ∈ s.states.keys ↔ n ∈ t.states.keys := by
      refine same_members hs.nodes (by rw [keys_length, keys_length]; exact h2) ?_
      intro n hn
      obtain ⟨d, hd⟩ := (hmem _ n).1 hn
      obtain ⟨d', hd', _⟩ := h3 _ (Dict.mem_of_get? hd)
      exact (hmem _ n).2 ⟨d', hd'⟩
    refine ⟨h1, hnodes, ?_, ?_⟩
    · intro n p
      rw [hr, hr']
      by_cases hn : n ∈ s.states.keys
      · obtain ⟨d, hd⟩ := (hmem _ n).1 hn
        obtain ⟨d', hd', hl, hv⟩ := h3 _ (Dict.mem_of_get? hd)
        simp only at hd' hl hv
        rw [varsEq_true] at hv
        have hsub : ∀ x ∈ d.keys, x ∈ d'.keys := by
          intro x hx
          obtain ⟨v, hv1⟩ := (hmem _ x).1 hx
          obtain ⟨v', hv', _⟩ := hv _ (Dict.mem_of_get? hv1)
          exact (hmem _ x).2 ⟨v', hv'⟩
        have hk := same_members (hs.vars n d hd) (by rw [keys_length, keys_length]; exact hl) hsub
        unfold look
        rw [hd, hd']
        simp only [Option.bind_some]
        by_cases hp : p ∈ d.keys
        · obtain ⟨v, hv1⟩ := (hmem _ p).1 hp
          obtain ⟨v', hv', hc⟩ := hv _ (Dict.mem_of_get? hv1)
          exact Or.inr ⟨v, v', hv1, hv', hc⟩
        · left
          exact ⟨(Dict.get?_eq_none_iff d p).2 hp, (Dict.get?_eq_none_iff d' p).2 fun h => hp ((hk p).2 h)⟩
      · left
        unfold look
        rw [(Dict.get?_eq_none_iff _ n).2 hn, (Dict.get?_eq_none_iff _ n).2 fun h => hn ((hnodes n).2 h)]
        simp
    · intro n p
      rw [isFixed_iff, isFixed_iff]
      by_cases hn : n ∈ s.states.keys
      · exact hf.2 n _ _ (hfix hs n hn) (hfix ht n ((hnodes n).1 hn)) p
      · have a1 : s.fixed.get? n = none := (Dict.get?_eq_none_iff _ n).2 fun h => hn ((hs.fkeys n).1 h)
        have a2 : t.fixed.get? n = none := (Dict.get?_eq_none_iff _ n).2 fun h => hn ((hnodes n).2 ((ht.fkeys n).1 h))
        simp [fixedOf, a1, a2]
  · rintro ⟨h1, h2, h3, h4⟩
    have hlen : ∀ {a b : List Name}, a.Nodup → b.Nodup → (∀ x, x ∈ a ↔ x ∈ b) → a.length = b.length :=
      fun ha hb h => ((List.perm_ext_iff_of_nodup ha hb).2 h).length_eq
    have hl : s.states.length = t.states.length := by
      rw [← keys_length, ← keys_length]; exact hlen hs.nodes ht.nodes h2
    have hn : GState.nodesEq close t.states s.states = .ok true := by
      rw [nodesEq_true]
      rintro ⟨n, d⟩ hq
      have hd : s.states.get? n = some d := Dict.get?_of_mem hs.nodes hq
      obtain ⟨d', hd'⟩ := (hmem _ n).1 ((h2 n).1 ((hmem _ n).2 ⟨d, hd⟩))
      have hv : ∀ p, (d.get? p = none ∧ d'.get? p = none) ∨ ∃ v v', d.get? p = some v ∧ d'.get? p = some v' ∧ close v v' = .ok true := by
        intro p
        have := h3 n p
        rw [hr, hr'] at this
        unfold look at this
        rwa [hd, hd'] at this
      refine ⟨d', hd', ?_, ?_⟩
      · rw [← keys_length, ← keys_length]
        refine hlen (hs.vars n d hd) (ht.vars n d' hd') fun p => ?_
        rw [hmem, hmem]
        rcases hv p with ⟨a, b⟩ | ⟨v, v', a, b, _⟩
        · simp [a, b]
        · simp [a, b]
      · rw [varsEq_true]
        rintro ⟨p, v⟩ hp
        have hp' := Dict.get?_of_mem (hs.vars n d hd) hp
        rcases hv p with ⟨a, b⟩ | ⟨w, w', a, b, c⟩
        · rw [a] at hp'; cases hp'
        · rw [a] at hp'; cases hp'; exact ⟨w', b, c⟩
    have hf : GState.fixedEq s.fixed t.fixed = true := by
      rw [fixedEq_true]
      refine ⟨fun n => by rw [hs.fkeys, ht.fkeys]; exact h2 n, ?_⟩
      intro n a b ha hb x
      have := h4 n x
      rw [isFixed_iff, isFixed_iff] at this
      simpa [fixedOf, ha, hb] using this
    unfold GState.eq
    rw [if_neg (by simpa using h1), if_neg (by simpa using hl), hn]
    simp only [hf]

/-- C120. Whenever `s == t` gives an answer, it is True exactly for states with the same number of samples, the same nodes, the same parameters with close values and the
same fixed parameters, in whatever order they were set. -/
theorem C120_equal_iff {close : Val α → Val α → Except Err Bool} {s t : GState α} (hs : Reachable s) (ht : Reachable t) :
    GState.eq close s t = .ok true ↔ SameState (fun v v' => close v v' = .ok true) s t :=
  eq_iff (reachable_wf hs) (reachable_wf ht)

/-! ### When the comparison answers -/

/-- A value `np.allclose` can compare in a state of `n` samples: a number, or for several samples a column of numbers. -/
def Numeric (n : Nat) (v : Val ℝ) : Prop :=
  if n = 1 then ∃ x, v = .scalar x else ∃ xs : List ℝ, xs.length = n ∧ v = .arr (xs.map .scalar)

theorem cellNums_arr : ∀ xs : List ℝ, GState.cellNums (.arr (xs.map .scalar)) = .ok xs := by
  intro xs
  show (xs.map Val.scalar).mapM GState.cellNum = .ok xs
  induction xs with
  | nil => rfl
  | cons x xs ih => rw [List.map_cons, List.mapM_cons, ih]; rfl

theorem allclose_numeric {n : Nat} {v v' : Val ℝ} (hv : Numeric n v) (hv' : Numeric n v') : ∃ b, GState.npAllclose v v' = .ok b := by
  unfold Numeric at hv hv'
  split at hv
  · rename_i h1
    rw [if_pos h1] at hv'
    obtain ⟨x, rfl⟩ := hv; obtain ⟨y, rfl⟩ := hv'
    exact ⟨_, rfl⟩
  · rename_i h0
    rw [if_neg h0] at hv'
    obtain ⟨xs, h1, rfl⟩ := hv; obtain ⟨ys, h2, rfl⟩ := hv'
    unfold GState.npAllclose
    rw [cellNums_arr, cellNums_arr]
    simp only
    rw [if_pos (by omega)]
    exact ⟨_, rfl⟩

theorem allclose_self {n : Nat} {v : Val ℝ} (hv : Numeric n v) : GState.npAllclose v v = .ok true := by
  have hc : ∀ x : ℝ, GState.isclose x x = true := by
    intro x
    unfold GState.isclose
    rw [decide_eq_true_eq, sub_self, abs_zero]
    positivity
  have hz : ∀ xs : List ℝ, ((xs.zip xs).all fun p => GState.isclose p.1 p.2) = true := by
    intro xs
    induction xs with
    | nil => rfl
    | cons x xs ih => rw [List.zip_cons_cons, List.all_cons, ih, hc]; rfl
  unfold Numeric at hv
  split at hv
  · obtain ⟨x, rfl⟩ := hv
    show Except.ok _ = _
    rw [hz]
  · obtain ⟨xs, h1, rfl⟩ := hv
    unfold GState.npAllclose
    rw [cellNums_arr]
    simp only [if_true, hz]

theorem varsEq_ok {close : Val α → Val α → Except Err Bool} {other : Dict Name (Val α)} : ∀ l : List (Name × Val α),
    (∀ q ∈ l, ∀ v', other.get? q.1 = some v' → ∃ b, close q.2 v' = .ok b) → ∃ b, GState.varsEq close other l = .ok b
  | [], _ => ⟨true, rfl⟩
  | (k, v) :: l, h => by
    unfold GState.varsEq
    cases hg : other.get? k with
    | none => exact ⟨false, rfl⟩
    | some v' =>
      obtain ⟨b, hb⟩ := h (k, v) (by simp) v' hg
      simp only at hb
      simp only [hb]
      cases b with
      | false => exact ⟨false, rfl⟩
      | true => exact varsEq_ok l fun q hq => h q (by simp [hq])

theorem nodesEq_ok {close : Val α → Val α → Except Err Bool} {other : Dict Name (Dict Name (Val α))} : ∀ l : List (Name × Dict Name (Val α)),
    (∀ q ∈ l, ∀ d', other.get? q.1 = some d' → ∀ r ∈ q.2, ∀ v', d'.get? r.1 = some v' → ∃ b, close r.2 v' = .ok b) →
    ∃ b, GState.nodesEq close other l = .ok b
  | [], _ => ⟨true, rfl⟩
  | (k, d) :: l, h => by
    unfold GState.nodesEq
    cases hg : other.get? k with
    | none => exact ⟨false, rfl⟩
    | some d' =>
      simp only
      split
      · exact ⟨false, rfl⟩
      · obtain ⟨b, hb⟩ := varsEq_ok (close := close) (other := d') d (fun r hr v' hv' => h (k, d) (by simp) d' hg r hr v' hv')
        simp only [hb]
        cases b with
        | false => exact ⟨false, rfl⟩
        | true => exact nodesEq_ok l fun q hq => h q (by simp [hq])

/-- C120, for states that hold numbers only. The comparison of two such states always answers, and a state equals itself and its copy. Missing: states that hold None (a
model without `t0` or position), see the counterexample. -/
theorem C120_answers_partial {s t : GState ℝ} (hs : Reachable s) (ht : Reachable t) (hvs : ∀ n p v, readParam s n p = some v → Numeric s.numSamples v)
    (hvt : ∀ n p v, readParam t n p = some v → Numeric t.numSamples v) :
    (∃ b, GState.eq GState.npAllclose s t = .ok b) ∧ GState.eq GState.npAllclose s s = .ok true ∧ GState.eq GState.npAllclose s s.copy = .ok true := by
  have hw := reachable_wf hs
  have hw' := reachable_wf ht
  have hself : GState.eq GState.npAllclose s s = .ok true := by
    rw [C120_equal_iff hs hs]
    refine ⟨rfl, fun _ => Iff.rfl, fun n p => ?_, fun _ _ => Iff.rfl⟩
    cases h : readParam s n p with
    | none => exact Or.inl ⟨rfl, rfl⟩
    | some v => exact Or.inr ⟨v, v, rfl, rfl, allclose_self (hvs n p v h)⟩
  refine ⟨?_, hself, by rw [GraphProps.C60_copy_partial]; exact hself⟩
  unfold GState.eq
  split
  · exact ⟨false, rfl⟩
  rename_i h1
  split
  · exact ⟨false, rfl⟩
  push Not at h1
  obtain ⟨b, hb⟩ := nodesEq_ok (close := GState.npAllclose) (other := t.states) s.states (by
    rintro ⟨n, d⟩ hq d' hd' ⟨p, v⟩ hr v' hv'
    have hd := Dict.get?_of_mem hw.nodes hq
    have hp := Dict.get?_of_mem (hw.vars n d hd) hr
    refine allclose_numeric (n := s.numSamples) (hvs n p v ?_) ?_
    · rw [read_eq_look s hw.toShape]; unfold look; rw [hd]; exact hp
    · rw [h1]
      refine hvt n p v' ?_
      rw [read_eq_look t hw'.toShape]; unfold look; simp only at hd'; rw [hd']; exact hv')
  rw [hb]
  cases b with
  | false => exact ⟨false, rfl⟩
  | true => exact ⟨_, rfl⟩

/-- The single-sample state of a model with one parameter. -/
noncomputable def single (v : Val ℝ) : GState ℝ := (((GState.init 1).toOption.getD ⟨1, 0, [], []⟩).set ['m'] ['x'] v).1

theorem single_reachable (v : Val ℝ) : Reachable (single v) := ⟨1, _, [Op.set ['m'] ['x'] v false], rfl, rfl⟩

/-- C120 fails for states that hold None: comparing a state of a model whose `x` is None with its own copy raises TypeError. -/
theorem C120_none_counterexample : ∃ s : GState ℝ, Reachable s ∧ readParam s ['m'] ['x'] = some .none ∧ GState.eq GState.npAllclose s s.copy = .error .typeError :=
  ⟨single .none, single_reachable _, rfl, rfl⟩

theorem single_eq (x y : ℝ) : GState.eq GState.npAllclose (single (.scalar x)) (single (.scalar y)) = .ok (GState.isclose x y) := by
  have e : ∀ b : Bool, GState.isclose x y = b → GState.npAllclose (.scalar x) (.scalar y) = .ok b := by
    intro b hb
    show Except.ok (GState.isclose x y && true) = Except.ok b
    rw [hb, Bool.and_true]
  cases hb : GState.isclose x y with
  | true =>
    have hc := e true hb
    have hn : GState.nodesEq GState.npAllclose (single (.scalar y)).states (single (.scalar x)).states = .ok true := by
      rw [nodesEq_true]
      intro q hq
      have hq' : q = (['m'], [(['x'], .scalar x)]) := List.mem_singleton.1 hq
      subst hq'
      refine ⟨[(['x'], .scalar y)], rfl, rfl, ?_⟩
      rw [varsEq_true]
      intro r hr
      rw [List.mem_singleton] at hr; subst hr
      exact ⟨.scalar y, rfl, hc⟩
    unfold GState.eq
    rw [if_neg (fun h => h rfl), if_neg (fun h => h rfl), hn]
    rfl
  | false =>
    have hc := e false hb
    have hn : GState.nodesEq GState.npAllclose (single (.scalar y)).states (single (.scalar x)).states = .ok false := by
      have h1 : (single (.scalar x)).states = [(['m'], [(['x'], .scalar x)])] := rfl
      have h2 : (single (.scalar y)).states.get? ['m'] = some [(['x'], .scalar y)] := rfl
      have h3 : Dict.get? [(['x'], Val.scalar y)] ['x'] = some (.scalar y) := rfl
      rw [h1]
      unfold GState.nodesEq
      rw [h2]
      simp only [List.length_singleton, ne_eq, not_true_eq_false, if_false]
      unfold GState.varsEq
      rw [h3]
      simp only [hc]
    unfold GState.eq
    rw [if_neg (fun h => h rfl), if_neg (fun h => h rfl), hn]

/-- C120: equality is not symmetric. There are two states with `s == t` but not `t == s` (the tolerance is relative to the right-hand side). -/
theorem C120_asymmetric_counterexample : ∃ s t : GState ℝ, Reachable s ∧ Reachable t ∧ GState.eq GState.npAllclose s t = .ok true ∧ GState.eq GState.npAllclose t s = .ok false := by
  refine ⟨single (.scalar 1), single (.scalar (1 + 1001 / 100000000 + 1 / 100000000000)), single_reachable _, single_reachable _, ?_, ?_⟩
  · rw [single_eq]
    congr 1
    unfold GState.isclose
    rw [decide_eq_true_eq, abs_of_nonpos (by norm_num), abs_of_pos (by norm_num)]
    norm_num
  · rw [single_eq]
    congr 1
    unfold GState.isclose
    rw [decide_eq_false_iff_not, abs_of_nonneg (by norm_num), abs_of_pos (by norm_num)]
    norm_num

/-- The hypotheses of `C120_answers_partial` are met by a two-sample state. -/
example : ∃ s : GState ℝ, Reachable s ∧ s.numSamples = 2 ∧ readParam s ['m'] ['x'] = some (.arr [.scalar 1, .scalar 2]) ∧
    (∀ n p v, readParam s n p = some v → Numeric s.numSamples v) := by
  have hr : Reachable (run (⟨2, 0, [], []⟩ : GState ℝ) [Op.set ['m'] ['x'] (.arr [.scalar 1, .scalar 2]) false]) := ⟨2, _, _, rfl, rfl⟩
  refine ⟨_, hr, rfl, rfl, ?_⟩
  intro n p v h
  rw [read_eq_look _ (reachable_wf hr).toShape] at h
  have hst : (run (⟨2, 0, [], []⟩ : GState ℝ) [Op.set ['m'] ['x'] (.arr [.scalar 1, .scalar 2]) false]).states = [(['m'], [(['x'], .arr [.scalar 1, .scalar 2])])] := rfl
  unfold look at h
  rw [hst] at h
  by_cases h1 : ['m'] = n
  · by_cases h2 : ['x'] = p
    · subst h1; subst h2
      have : (Val.arr [.scalar 1, .scalar 2] : Val ℝ) = v := Option.some.inj h
      subst this
      unfold Numeric
      rw [if_neg (by decide)]
      exact ⟨[1, 2], rfl, rfl⟩
    · simp [Dict.get?_cons, h1, h2] at h
  · simp [Dict.get?_cons, h1] at h

/-! ## C121 — files -/

/-- No node without parameters, nothing fixed. -/
structure Clean (s : GState α) : Prop where
  wf : WF s
  filled : ∀ n ∈ s.states.keys, ∃ p v, look s n p = some v
  free : ∀ n, fixedOf s n = []

theorem set_clean {s : GState α} (hs : Clean s) {n p : Name} {v : Val α} (h : (s.set n p v false).2 = none) : Clean (s.set n p v false).1 := by
  obtain ⟨hw, hnum, hcase⟩ := set_effect s hs.wf n p v false
  have hp : p ∉ fixedOf s n := by rw [hs.free]; simp
  have hfree : ∀ n', fixedOf (s.set n p v false).1 n' = [] := by
    intro n'
    rcases hcase with ⟨_, _, c⟩ | ⟨_, _, w, _, _, c⟩
    · rw [c, hs.free]
    · rw [c, if_neg (by simp), hs.free]
  refine ⟨hw, ?_, hfree⟩
  have e := set_eq s hs.wf n p v false
  by_cases hd : (hasDot n || hasDot p) = true
  · rw [if_pos hd] at e; rw [e] at h; cases h
  · rw [if_neg hd, if_neg hp] at e
    cases hv : GState.normalise s.numSamples v with
    | error err => simp only [hv] at e; rw [e] at h; cases h
    | ok w =>
      rcases hcase with ⟨c | c | ⟨err, c⟩, _⟩ | ⟨_, _, w', hw', hl, _⟩
      · exact absurd c hd
      · exact absurd c hp
      · rw [hv] at c; cases c
      · intro m hm
        have hm' : m = n ∨ m ∈ s.states.keys := by
          rw [e] at hm
          simp only [hv] at hm
          rw [Dict.mem_keys_set] at hm
          rcases hm with h | h
          · exact Or.inl h
          · exact (touch_keys s n m).1 h
        by_cases hmn : m = n
        · subst hmn
          exact ⟨p, w', by rw [hl]; simp⟩
        · obtain ⟨p', v', hv'⟩ := hs.filled m (hm'.resolve_left hmn)
          exact ⟨p', v', by rw [hl, if_neg (by rintro ⟨h, _⟩; exact hmn h.symm)]; exact hv'⟩

theorem fromTableLoop_clean (rows : Nat) : ∀ (cols : List (Name × List (Val α))) (s : GState α) {t : GState α}, Clean s →
    GState.fromTableLoop rows s cols = .ok t → Clean t
  | [], s, t, hs, h => by cases h; exact hs
  | (c, data) :: cols, s, t, hs, h => by
    unfold GState.fromTableLoop at h
    split at h
    · rename_i a b hab
      simp only at h
      split at h
      · cases h
      · rename_i v hv
        split at h
        · rename_i s' hset
          refine fromTableLoop_clean rows cols s' ?_ h
          have := set_clean hs (n := a) (p := b) (v := v) (by rw [hset])
          rwa [hset] at this
        · cases h
    · cases h

theorem init_clean {n : Int} {s : GState α} (h : GState.init n = .ok s) : Clean s := by
  have hw := init_wf h
  unfold GState.init at h
  split at h
  · cases h
  · cases h
    exact ⟨hw, by simp, by simp [fixedOf]⟩

/-- C121, for states of several samples. A state saved to a file that does not exist yet, or with `overwrite=True`, and read again has the same samples and parameters, none of
them fixed; no other file changes. Saving to an existing file without `overwrite` raises OSError and changes no file. Missing: states of one sample, and fixed
parameters, see the counterexamples. -/
theorem C121_roundtrip_partial {s : GState α} (hs : Reachable s) (hn : s.numSamples ≠ 1) (hne : ∃ n p, (readParam s n p).isSome = true) (fs : GState.Files α) (path : Name)
    (overwrite : Bool) :
    (path ∈ fs.keys ∧ overwrite = false → GState.saveToFile fs s path overwrite = (fs, some .osError)) ∧
    (path ∉ fs.keys ∨ overwrite = true → ∃ fs' t, GState.saveToFile fs s path overwrite = (fs', none) ∧ GState.fromFile fs' path = .ok t ∧
      t.numSamples = s.numSamples ∧ (∀ n p, readParam t n p = readParam s n p) ∧ (∀ n p, ¬ isFixed t n p) ∧ (∀ other, other ≠ path → fs'.get? other = fs.get? other) ∧
      Clean t) := by
  obtain ⟨tbl, t, h1, h2, h3, h4, h5⟩ := GraphProps.C06_table_roundtrip s hs hn hne
  have hclean : Clean t := by
    unfold GState.fromTable at h3
    simp only [bind, Except.bind] at h3
    split at h3
    · cases h3
    · rename_i s0 h0
      exact fromTableLoop_clean _ _ _ (init_clean h0) h3
  unfold GState.saveToFile
  rw [h1]
  simp only
  constructor
  · rintro ⟨a, rfl⟩
    rw [(Dict.has_iff fs path).2 a]
    rfl
  · intro h
    have hc : (fs.has path && !overwrite) = false := by
      rcases h with h | h
      · rw [(Dict.has_eq_false_iff fs path).2 h]; rfl
      · rw [h]; simp
    rw [hc]
    refine ⟨fs.set path tbl, t, rfl, ?_, h4, h5, ?_, fun other ho => Dict.get?_set_ne fs _ (Ne.symm ho), hclean⟩
    · unfold GState.fromFile
      rw [Dict.get?_set_self]
      exact h3
    · intro n p
      rw [isFixed_iff, hclean.free]
      simp

/-- C121. A state of several samples that holds numbers only, has no fixed parameter and no node without parameters equals (`==`) what is read back from its file. -/
theorem C121_equal {s : GState ℝ} (hs : Reachable s) (hn : s.numSamples ≠ 1) (hne : ∃ n p, (readParam s n p).isSome = true)
    (hv : ∀ n p v, readParam s n p = some v → Numeric s.numSamples v) (hfree : ∀ n p, ¬ isFixed s n p)
    (hfull : ∀ n ∈ s.states.keys, ∃ p v, readParam s n p = some v) (path : Name) (fs : GState.Files ℝ) :
    ∃ fs' t, GState.saveToFile fs s path true = (fs', none) ∧ GState.fromFile fs' path = .ok t ∧
      GState.eq GState.npAllclose s t = .ok true ∧ GState.eq GState.npAllclose t s = .ok true := by
  obtain ⟨fs', t, h1, h2, h3, h4, h5, _, hc⟩ := (C121_roundtrip_partial hs hn hne fs path true).2 (Or.inr rfl)
  have hw := reachable_wf hs
  have hnodes : ∀ n, n ∈ s.states.keys ↔ n ∈ t.states.keys := by
    have key : ∀ {a : GState ℝ} {n p v}, look a n p = some v → n ∈ a.states.keys := by
      intro a n p v h
      unfold look at h
      by_contra hne
      rw [← Dict.get?_eq_none_iff] at hne
      rw [hne] at h; cases h
    intro n
    constructor
    · intro hn
      obtain ⟨p, v, hpv⟩ := hfull n hn
      rw [← h4, read_eq_look t hc.wf.toShape] at hpv
      exact key hpv
    · intro hn
      obtain ⟨p, v, hpv⟩ := hc.filled n hn
      rw [← read_eq_look t hc.wf.toShape, h4, read_eq_look s hw.toShape] at hpv
      exact key hpv
  refine ⟨fs', t, h1, h2, ?_, ?_⟩
  · rw [eq_iff hw hc.wf]
    refine ⟨h3.symm, hnodes, fun n p => ?_, fun n p => ⟨fun h => absurd h (hfree n p), fun h => absurd h (h5 n p)⟩⟩
    rw [h4]
    cases h : readParam s n p with
    | none => exact Or.inl ⟨rfl, rfl⟩
    | some v => exact Or.inr ⟨v, v, rfl, rfl, allclose_self (hv n p v h)⟩
  · rw [eq_iff hc.wf hw]
    refine ⟨h3, fun n => (hnodes n).symm, fun n p => ?_, fun n p => ⟨fun h => absurd h (h5 n p), fun h => absurd h (hfree n p)⟩⟩
    rw [h4]
    cases h : readParam s n p with
    | none => exact Or.inl ⟨rfl, rfl⟩
    | some v => exact Or.inr ⟨v, v, rfl, rfl, allclose_self (hv n p v h)⟩

/-- C121 fails for fixed parameters: after saving and reading back a state with a fixed parameter, the parameter is not fixed any more (a write that the original state ignores
changes it) and the states are not equal. -/
theorem C121_fixed_counterexample : ∃ (s t : GState ℝ) (fs' : GState.Files ℝ), Reachable s ∧ GState.saveToFile [] s ['f'] false = (fs', none) ∧
    GState.fromFile fs' ['f'] = .ok t ∧ GState.eq GState.npAllclose s t = .ok false ∧
    (s.set ['m'] ['x'] (.scalar 5)).1 = s ∧ readParam (t.set ['m'] ['x'] (.scalar 5)).1 ['m'] ['x'] = some (.arr [.scalar 5, .scalar 5]) ∧
    readParam s ['m'] ['x'] = some (.arr [.scalar 1, .scalar 2]) := by
  have hr : Reachable (run (⟨2, 0, [], []⟩ : GState ℝ) [Op.set ['m'] ['x'] (.arr [.scalar 1, .scalar 2]) true]) := ⟨2, _, _, rfl, rfl⟩
  obtain ⟨fs', t, h1, h2, h3, h4, h5, _, hc⟩ := (C121_roundtrip_partial hr (by decide) ⟨['m'], ['x'], rfl⟩ [] ['f'] false).2 (Or.inl (by simp))
  refine ⟨_, t, fs', hr, h1, h2, ?_, rfl, ?_, rfl⟩
  · have hne : GState.eq GState.npAllclose (run (⟨2, 0, [], []⟩ : GState ℝ) [Op.set ['m'] ['x'] (.arr [.scalar 1, .scalar 2]) true]) t ≠ .ok true := by
      rw [ne_eq, eq_iff (reachable_wf hr) hc.wf]
      intro h
      exact h5 ['m'] ['x'] ((h.fixed _ _).1 ⟨[['x']], rfl, by simp⟩)
    have hst : (run (⟨2, 0, [], []⟩ : GState ℝ) [Op.set ['m'] ['x'] (.arr [.scalar 1, .scalar 2]) true]).states = [(['m'], [(['x'], .arr [.scalar 1, .scalar 2])])] := rfl
    have hl : look t ['m'] ['x'] = some (.arr [.scalar 1, .scalar 2]) := by
      rw [← read_eq_look t hc.wf.toShape, h4]; rfl
    obtain ⟨b, hb⟩ := nodesEq_ok (close := GState.npAllclose) (other := t.states) [(['m'], [(['x'], .arr [.scalar 1, .scalar 2])])] (by
      intro q hq d' hd' r hr v' hv'
      rw [List.mem_singleton] at hq; subst hq
      rw [List.mem_singleton] at hr; subst hr
      simp only at hd' hv'
      unfold look at hl
      rw [hd', Option.bind_some, hv'] at hl
      cases hl
      exact ⟨_, allclose_self (n := 2) (by unfold Numeric; rw [if_neg (by decide)]; exact ⟨[1, 2], rfl, rfl⟩)⟩)
    rw [← hst] at hb
    unfold GState.eq at hne ⊢
    split
    · rfl
    · rename_i a1
      rw [if_neg a1] at hne
      split
      · rfl
      · rename_i a2
        rw [if_neg a2, hb] at hne
        rw [hb]
        cases b with
        | false => rfl
        | true =>
          simp only at hne ⊢
          cases hx : GState.fixedEq (run (⟨2, 0, [], []⟩ : GState ℝ) [Op.set ['m'] ['x'] (.arr [.scalar 1, .scalar 2]) true]).fixed t.fixed with
          | false => rfl
          | true => rw [hx] at hne; exact absurd rfl hne
  · obtain ⟨hw, _, hcase⟩ := set_effect t hc.wf ['m'] ['x'] (.scalar 5) false
    rw [read_eq_look _ hw.toShape]
    have hnorm : GState.normalise t.numSamples (.scalar (5 : ℝ)) = .ok (.arr [.scalar 5, .scalar 5]) := by rw [h3]; rfl
    rcases hcase with ⟨c | c | ⟨err, c⟩, _⟩ | ⟨_, _, w', hw', hl, _⟩
    · exact absurd c (by decide)
    · rw [hc.free] at c; cases c
    · rw [hnorm] at c; cases c
    · rw [hl, if_pos ⟨rfl, rfl⟩]
      rw [hnorm] at hw'
      cases hw'
      rfl

/-- C121 fails for one sample: a state of one number cannot be saved. -/
theorem C121_single_counterexample (x : ℝ) (fs : GState.Files ℝ) (path : Name) (overwrite : Bool) :
    Reachable (single (.scalar x)) ∧ GState.saveToFile fs (single (.scalar x)) path overwrite = (fs, some .typeError) :=
  ⟨single_reachable _, rfl⟩

/-! ## C06 — nested dictionaries -/

theorem dictLoop_nested (n : Name) (hn : hasDot n = false) (rest : List (Name × GState.Entry α)) : ∀ (d : List (Name × Val α)), (∀ q ∈ d, hasDot q.1 = false) → ∀ s : GState α,
    GState.fromDictLoop s ((n, .nested d) :: rest) = GState.fromDictLoop s ((d.map fun q => (GState.extendedName n q.1, GState.Entry.val q.2)) ++ rest)
  | [], _, s => by
    rw [show GState.fromDictLoop s ((n, .nested []) :: rest) = if hasDot n then _ else GState.fromDictLoop s rest from rfl, hn]
    rfl
  | (k, v) :: d, hd, s => by
    have hk := hd (k, v) (by simp)
    have ih := dictLoop_nested n hn rest d (fun q hq => hd q (by simp [hq]))
    have e1 : ∀ (s : GState α) d, GState.fromDictLoop s ((n, .nested d) :: rest) = (match s.setAll n false d with
        | (s', none) => GState.fromDictLoop s' rest
        | (_, some err) => .error err) := by
      intro s d
      conv => lhs; unfold GState.fromDictLoop
      rw [hn]
      rfl
    have e2 : ∀ (l : List (Name × GState.Entry α)), GState.fromDictLoop s ((GState.extendedName n k, .val v) :: l) = (match s.set n k v false with
        | (s', none) => GState.fromDictLoop s' l
        | (_, some err) => .error err) := by
      intro l
      conv => lhs; unfold GState.fromDictLoop
      rw [show hasDot (GState.extendedName n k) = true from hasDot_join n k, if_pos rfl, show splitDot (GState.extendedName n k) = [n, k] from splitDot_join hn hk]
      rfl
    rw [e1, List.map_cons, List.cons_append, e2]
    rw [show s.setAll n false ((k, v) :: d) = (match s.set n k v false with
      | (s', none) => s'.setAll n false d
      | (s', some e) => (s', some e)) from rfl]
    rcases s.set n k v false with ⟨s', _ | e⟩
    · simp only
      rw [← ih s', e1]
    · rfl

theorem dictLoop_states : ∀ (st : Dict Name (Dict Name (Val α))), (∀ q ∈ st, hasDot q.1 = false ∧ ∀ r ∈ q.2, hasDot r.1 = false) → ∀ s : GState α,
    GState.fromDictLoop s (st.map fun q => (q.1, GState.Entry.nested q.2)) =
      GState.fromDictLoop s ((keyed (st.flatMap fun q => q.2.map fun r => (q.1, r.1, r.2))).map fun q => (q.1, GState.Entry.val q.2)) := by
  intro st hst
  suffices h : ∀ (rest : List (Name × GState.Entry α)) (s : GState α), GState.fromDictLoop s ((st.map fun q => (q.1, GState.Entry.nested q.2)) ++ rest) =
      GState.fromDictLoop s (((keyed (st.flatMap fun q => q.2.map fun r => (q.1, r.1, r.2))).map fun q => (q.1, GState.Entry.val q.2)) ++ rest) by
    intro s
    have := h [] s
    simpa using this
  induction st with
  | nil => intro rest s; rfl
  | cons q st ih =>
    intro rest s
    obtain ⟨hn, hd⟩ := hst q (by simp)
    rw [List.map_cons, List.cons_append, dictLoop_nested q.1 hn _ q.2 hd]
    have key : ∀ (l : List (Name × GState.Entry α)) (a b : List (Name × GState.Entry α)), (∀ s : GState α, GState.fromDictLoop s a = GState.fromDictLoop s b) →
        ∀ s : GState α, GState.fromDictLoop s (l ++ a) = GState.fromDictLoop s (l ++ b) := by
      intro l a b hab
      induction l with
      | nil => exact hab
      | cons x l ihl =>
        intro s
        rw [List.cons_append, List.cons_append]
        unfold GState.fromDictLoop
        split
        · split
          · split
            · exact ihl _
            · rfl
          · rfl
          · rfl
        · split
          · split
            · exact ihl _
            · rfl
          · rfl
    rw [key _ _ _ (ih (fun q hq => hst q (by simp [hq])) rest)]
    simp only [keyed, List.flatMap_cons, List.map_append, List.map_map, List.append_assoc]
    rfl

theorem fromDictLoop_clean : ∀ (l : List (Name × GState.Entry α)) (s : GState α) {t : GState α}, (∀ q ∈ l, ∃ v, q.2 = .val v) → Clean s →
    GState.fromDictLoop s l = .ok t → Clean t
  | [], s, t, _, hs, h => by cases h; exact hs
  | (k, e) :: l, s, t, hl, hs, h => by
    obtain ⟨v, hv⟩ := hl (k, e) (by simp)
    simp only at hv
    subst hv
    unfold GState.fromDictLoop at h
    split at h
    · split at h
      · rename_i e1
        simp only [GState.Entry.val.injEq] at e1
        split at h
        · rename_i s' hset
          have := set_clean hs (by rw [hset])
          rw [hset] at this
          exact fromDictLoop_clean l s' (fun q hq => hl q (by simp [hq])) this h
        · cases h
      · cases h
      · cases h
    · cases h

/-- C06 (nested dictionary): for every reachable state, `from_dict` of the nested dictionary `{node: {param: value}}` is `from_dict` of the flattened one; it succeeds, the result
reads the same everywhere and nothing is fixed in it. -/
theorem C06_nested_dict (s : GState α) (hs : Reachable s) :
    GState.fromDict (s.states.map fun q => (q.1, GState.Entry.nested q.2)) s.numSamples =
      GState.fromDict (s.toDict.map fun q => (q.1, GState.Entry.val q.2)) s.numSamples ∧
    ∃ t, GState.fromDict (s.states.map fun q => (q.1, GState.Entry.nested q.2)) s.numSamples = .ok t ∧ t.numSamples = s.numSamples ∧
      (∀ n p, readParam t n p = readParam s n p) ∧ ∀ n p, ¬ isFixed t n p := by
  have hw := reachable_wf hs
  have hst : ∀ q ∈ s.states, hasDot q.1 = false ∧ ∀ r ∈ q.2, hasDot r.1 = false := by
    rintro ⟨n, d⟩ hq
    have hd := Dict.get?_of_mem hw.nodes hq
    refine ⟨hw.dotN n (List.mem_map.2 ⟨_, hq, rfl⟩), ?_⟩
    rintro ⟨p, v⟩ hr
    exact hw.dotV n d hd p (List.mem_map.2 ⟨_, hr, rfl⟩)
  have he : GState.fromDict (s.states.map fun q => (q.1, GState.Entry.nested q.2)) s.numSamples =
      GState.fromDict (s.toDict.map fun q => (q.1, GState.Entry.val q.2)) s.numSamples := by
    unfold GState.fromDict
    rw [toDict_eq s hw.toShape]
    cases GState.init (α := α) s.numSamples with
    | error e => rfl
    | ok s0 => exact dictLoop_states s.states hst s0
  obtain ⟨⟨t, h1, h2, h3⟩, _, _⟩ := GraphProps.C06_dict_roundtrip s hs
  refine ⟨he, t, he.trans h1, h2, h3, ?_⟩
  have hc : Clean t := by
    unfold GState.fromDict at h1
    cases h0 : GState.init (α := α) s.numSamples with
    | error e => rw [h0] at h1; cases h1
    | ok s0 =>
      rw [h0] at h1
      refine fromDictLoop_clean _ s0 ?_ (init_clean h0) h1
      intro q hq
      obtain ⟨r, _, rfl⟩ := List.mem_map.1 hq
      exact ⟨r.2, rfl⟩
  intro n p
  rw [isFixed_iff, hc.free]
  simp

end LCL.GraphEqProps
