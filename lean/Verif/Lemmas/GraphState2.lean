import Verif.Lemmas.GraphState

/-! Helper lemmas: counting, histories, row extraction. -/

namespace LCL.GraphLemmas
open LCL LCL.GraphSpec
variable {α : Type}

theorem isFixed_iff (s : GState α) (n p : Name) : isFixed s n p ↔ p ∈ fixedOf s n := by
  unfold isFixed fixedOf
  cases s.fixed.get? n <;> simp

theorem mem_pairs_iff (s : GState α) (hs : Shape s) (n p : Name) :
    (n, p) ∈ pairs s ↔ ∃ v, look s n p = some v := by
  unfold pairs look
  simp only [List.mem_flatMap, List.mem_map, Prod.mk.injEq]
  constructor
  · rintro ⟨⟨n', d⟩, h1, ⟨p', v⟩, h2, rfl, rfl⟩
    have hd := Dict.get?_of_mem hs.nodes h1
    refine ⟨v, ?_⟩
    simp only at h2
    rw [hd]; exact Dict.get?_of_mem (hs.vars _ _ hd) h2
  · rintro ⟨v, h⟩
    cases hd : s.states.get? n with
    | none => simp [hd] at h
    | some d =>
      simp only [hd, Option.bind_some] at h
      exact ⟨(n, d), Dict.mem_of_get? hd, (p, v), Dict.mem_of_get? h, rfl, rfl⟩

theorem pairs_nodup (s : GState α) (hs : Shape s) : (pairs s).Nodup := by
  unfold pairs
  have h1 := hs.nodes
  have h2 : ∀ q ∈ s.states, q.2.keys.Nodup := by
    rintro ⟨n, d⟩ h
    exact hs.vars n d (Dict.get?_of_mem hs.nodes h)
  generalize s.states = st at h1 h2
  induction st with
  | nil => simp
  | cons q st ih =>
    obtain ⟨n, d⟩ := q
    simp only [Dict.keys_cons, List.nodup_cons] at h1
    simp only [List.flatMap_cons, List.nodup_append]
    refine ⟨?_, ih h1.2 (fun q hq => h2 q (List.mem_cons_of_mem _ hq)), ?_⟩
    · have := h2 (n, d) (by simp)
      have e : d.map (fun x => (n, x.1)) = (Dict.keys d).map (fun k => (n, k)) := by
        simp [Dict.keys, List.map_map, Function.comp_def]
      rw [e]
      exact List.Pairwise.map _ (fun a b hab h => hab (Prod.mk.inj h).2) this
    · rintro ⟨a, b⟩ ha ⟨a', b'⟩ hb e
      cases e
      simp only [List.mem_map, Prod.mk.injEq] at ha
      obtain ⟨_, _, rfl, _⟩ := ha
      simp only [List.mem_flatMap, List.mem_map, Prod.mk.injEq] at hb
      obtain ⟨⟨n', d'⟩, hm, _, _, rfl, _⟩ := hb
      exact h1.1 (List.mem_map.2 ⟨(n', d'), hm, rfl⟩)

/-- The number of stored parameters. -/
theorem pairs_length (s : GState α) : (pairs s).length = (s.states.map (·.2.length)).sum := by
  unfold pairs
  induction s.states with
  | nil => rfl
  | cons q st ih => simp [List.flatMap_cons, ih]

theorem sum_set {κ ν : Type} [DecidableEq κ] (f : ν → Nat) (d : Dict κ ν) (hd : d.keys.Nodup)
    (k : κ) (v : ν) :
    ((d.set k v).map (fun q => f q.2)).sum + ((d.get? k).map f).getD 0 =
      (d.map (fun q => f q.2)).sum + f v := by
  induction d with
  | nil => simp [Dict.set]
  | cons q d ih =>
    obtain ⟨k', v'⟩ := q
    simp only [Dict.keys_cons, List.nodup_cons] at hd
    by_cases h : k' = k
    · subst h; simp [Dict.set, Dict.get?_cons]; omega
    · simp only [Dict.set, h, if_false, List.map_cons, List.sum_cons, Dict.get?_cons]
      have := ih hd.2; omega

theorem touch_pairs_len (s : GState α) (hs : WF s) (n : Name) :
    (pairs (touch s n)).length = (pairs s).length := by
  rw [pairs_length, pairs_length]
  unfold touch GState.register
  split
  · rfl
  · rename_i h
    have h0 : s.states.get? n = none := by
      rw [Dict.get?_eq_none_iff, ← Dict.has_eq_false_iff]; simpa using h
    have := sum_set (fun d : Dict Name (Val α) => d.length) s.states hs.nodes n []
    simp [h0] at this
    simpa using this

/-- Counting invariant. -/
def Counted (s : GState α) : Prop := s.numParams = (pairs s).length

theorem set_counted (s : GState α) (hs : WF s) (hc : Counted s) (n p : Name) (v : Val α) (fx : Bool)
    (hok : (s.set n p v fx).2 = none) : Counted (s.set n p v fx).1 := by
  rw [set_eq s hs] at hok ⊢
  by_cases hd : (hasDot n || hasDot p) = true
  · simp [hd] at hok
  · have hd' : (hasDot n || hasDot p) = false := by simpa using hd
    have hn : hasDot n = false := by
      simp only [Bool.or_eq_true, not_or, Bool.not_eq_true] at hd; exact hd.1
    simp only [hd', Bool.false_eq_true, if_false] at hok ⊢
    by_cases hf : p ∈ fixedOf s n
    · simpa [hf] using hc
    · simp only [hf, if_false] at hok ⊢
      cases hv : GState.normalise s.numSamples v with
      | error e => simp [hv] at hok
      | ok w =>
        simp only
        unfold Counted
        rw [pairs_length]
        obtain ⟨d, hdd⟩ := touch_get s n
        have hw := touch_wf s n hs hn
        have hl : look s n p = Dict.get? d p := by
          rw [← touch_look s n n p]; simp [look, hdd]
        have h1 := sum_set (fun d : Dict Name (Val α) => d.length) (touch s n).states hw.nodes n (Dict.set d p w)
        simp only [hdd, Option.map_some, Option.getD_some] at h1 ⊢
        have h2 := touch_pairs_len s hs n
        rw [pairs_length (touch s n)] at h2
        have h3 := Dict.length_set d p w
        have h4 : p ∈ Dict.keys d ↔ (look s n p).isSome = true := by
          rw [← Dict.has_iff, hl]; rfl
        unfold Counted at hc
        by_cases h5 : (look s n p).isSome = true
        · rw [if_pos (h4.2 h5)] at h3
          simp only [h5, if_true]; omega
        · rw [if_neg (fun h => h5 (h4.1 h))] at h3
          simp only [h5]; simp; omega

theorem setAll_counted (vars : List (Name × Val α)) (s : GState α) (hs : WF s) (hc : Counted s)
    (n : Name) (fx : Bool) (hok : (s.setAll n fx vars).2 = none) : Counted (s.setAll n fx vars).1 := by
  induction vars generalizing s with
  | nil => exact hc
  | cons q rest ih =>
    obtain ⟨p, v⟩ := q
    have h := set_effect s hs n p v fx
    have hcc := set_counted s hs hc n p v fx
    unfold GState.setAll at hok ⊢
    rcases hr : s.set n p v fx with ⟨s', e⟩
    rw [hr] at h hok hcc
    cases e with
    | none => exact ih s' h.1 (hcc rfl) hok
    | some e => simp at hok

theorem setNested_counted (st : List (Name × Dict Name (Val α))) (s : GState α) (hs : WF s)
    (hc : Counted s) (fx : Bool) (hok : (s.setNested fx st).2 = none) :
    Counted (s.setNested fx st).1 := by
  induction st generalizing s with
  | nil => exact hc
  | cons q rest ih =>
    obtain ⟨n, vars⟩ := q
    have h := setAll_wf vars s hs n fx
    have hcc := setAll_counted vars s hs hc n fx
    unfold GState.setNested at hok ⊢
    rcases hr : s.setAll n fx vars with ⟨s', e⟩
    rw [hr] at h hok hcc
    cases e with
    | none => exact ih s' h.1 (hcc rfl) hok
    | some e => simp at hok

theorem update_counted (s : GState α) (hs : WF s) (hc : Counted s) (a : GState.UpdateArg α) (fx : Bool)
    (hok : (s.update a fx).2 = none) : Counted (s.update a fx).1 := by
  cases a with
  | graph g =>
    unfold GState.update at hok ⊢; simp only at hok ⊢
    split at hok
    · simp at hok
    · rename_i h; simp only [h, if_false]
      exact setNested_counted _ s hs hc fx hok
  | nested d => exact setNested_counted _ s hs hc fx hok

theorem run_counted (ops : List (Op α)) (s : GState α) (hs : WF s) (hc : Counted s)
    (hok : AllSucceed s ops) : Counted (run s ops) := by
  induction ops generalizing s with
  | nil => exact hc
  | cons op ops ih =>
    have h := step_wf s hs op
    cases op with
    | set n p v f => exact ih _ h.1 (set_counted s hs hc n p v f hok.1) hok.2
    | update a f => exact ih _ h.1 (update_counted s hs hc a f hok.1) hok.2

/-- Fixed sets only grow and fixed values stay. -/
def Stays (s t : GState α) : Prop :=
  ∀ n p, p ∈ fixedOf s n → p ∈ fixedOf t n ∧ look t n p = look s n p

theorem Stays.refl (s : GState α) : Stays s s := fun _ _ h => ⟨h, rfl⟩
theorem Stays.trans {s t u : GState α} (h1 : Stays s t) (h2 : Stays t u) : Stays s u :=
  fun n p h => ⟨(h2 n p (h1 n p h).1).1, (h2 n p (h1 n p h).1).2.trans (h1 n p h).2⟩

theorem set_stays (s : GState α) (hs : WF s) (n p : Name) (v : Val α) (fx : Bool) :
    Stays s (s.set n p v fx).1 := by
  intro n' p' h
  obtain ⟨_, _, ⟨_, h1, h2⟩ | ⟨_, hnf, w, _, h1, h2⟩⟩ := set_effect s hs n p v fx
  · rw [h1, h2]; exact ⟨h, rfl⟩
  · rw [h1, h2]
    constructor
    · split
      · rename_i e; rw [e.2]; exact List.mem_append_left _ h
      · exact h
    · have : ¬ (n = n' ∧ p = p') := by rintro ⟨rfl, rfl⟩; exact hnf h
      simp [this]

theorem setAll_stays (vars : List (Name × Val α)) (s : GState α) (hs : WF s) (n : Name) (fx : Bool) :
    Stays s (s.setAll n fx vars).1 := by
  induction vars generalizing s with
  | nil => exact Stays.refl s
  | cons q rest ih =>
    obtain ⟨p, v⟩ := q
    have h := set_effect s hs n p v fx
    have hst := set_stays s hs n p v fx
    unfold GState.setAll
    rcases hr : s.set n p v fx with ⟨s', e⟩
    rw [hr] at h hst
    cases e with
    | none => exact hst.trans (ih s' h.1)
    | some e => exact hst

theorem setNested_stays (st : List (Name × Dict Name (Val α))) (s : GState α) (hs : WF s) (fx : Bool) :
    Stays s (s.setNested fx st).1 := by
  induction st generalizing s with
  | nil => exact Stays.refl s
  | cons q rest ih =>
    obtain ⟨n, vars⟩ := q
    have h := setAll_wf vars s hs n fx
    have hst := setAll_stays vars s hs n fx
    unfold GState.setNested
    rcases hr : s.setAll n fx vars with ⟨s', e⟩
    rw [hr] at h hst
    cases e with
    | none => exact hst.trans (ih s' h.1)
    | some e => exact hst

theorem update_stays (s : GState α) (hs : WF s) (a : GState.UpdateArg α) (fx : Bool) :
    Stays s (s.update a fx).1 := by
  cases a with
  | graph g =>
    unfold GState.update; simp only
    split
    · exact Stays.refl s
    · exact setNested_stays _ s hs fx
  | nested d => exact setNested_stays _ s hs fx

theorem run_stays (ops : List (Op α)) (s : GState α) (hs : WF s) : Stays s (run s ops) := by
  induction ops generalizing s with
  | nil => exact Stays.refl s
  | cons op ops ih =>
    have h := step_wf s hs op
    refine Stays.trans ?_ (ih _ h.1)
    cases op with
    | set n p v f => exact set_stays s hs n p v f
    | update a f => exact update_stays s hs a f

/-- Effect of a successful inner loop of `update` (distinct keys). -/
theorem setAll_effect (vars : List (Name × Val α)) (s : GState α) (hs : WF s) (n : Name) (fx : Bool)
    (hv : Dict.keys vars |>.Nodup) (hok : (s.setAll n fx vars).2 = none) :
    ∀ n' p', look (s.setAll n fx vars).1 n' p' =
        (if n = n' ∧ p' ∉ fixedOf s n' then
          match Dict.get? vars p' with
          | some v => (GState.normalise s.numSamples v).toOption
          | none => look s n' p'
         else look s n' p') ∧
      (∀ v, n = n' → Dict.get? vars p' = some v → p' ∉ fixedOf s n' →
        ∃ w, GState.normalise s.numSamples v = .ok w) ∧
      (p' ∈ fixedOf (s.setAll n fx vars).1 n' ↔
        p' ∈ fixedOf s n' ∨ (fx = true ∧ n = n' ∧ p' ∈ Dict.keys vars)) := by
  induction vars generalizing s with
  | nil => intro n' p'; simp [GState.setAll]
  | cons q rest ih =>
    obtain ⟨p, v⟩ := q
    intro n' p'
    have h := set_effect s hs n p v fx
    have herr := set_error_iff s hs n p v fx
    simp only [Dict.keys_cons, List.nodup_cons] at hv
    unfold GState.setAll at hok ⊢
    rcases hr : s.set n p v fx with ⟨s', e⟩
    rw [hr] at h hok herr
    cases e with
    | some e => simp at hok
    | none =>
      simp only at hok ⊢
      have herr := herr.1 rfl
      obtain ⟨h1, h2, h3⟩ := ih s' h.1 hv.2 hok n' p'
      obtain ⟨hw', hns, heff⟩ := h
      simp only at hns heff hw'
      rw [h1, h3, hns]
      rcases heff with ⟨hc, hl, hf⟩ | ⟨_, hnf, w, hw, hl, hf⟩
      · have hpf : p ∈ fixedOf s n := by
          rcases herr.2 with hp | ⟨w, hw⟩
          · exact hp
          · rcases hc with hc | hc | ⟨e, he⟩
            · rw [herr.1] at hc; cases hc
            · exact hc
            · rw [hw] at he; cases he
        simp only [hl, hf]
        refine ⟨?_, ?_, ?_⟩
        · by_cases e : n = n' ∧ p' ∉ fixedOf s n'
          · simp only [e, and_self, if_true, not_false_eq_true]
            have : p ≠ p' := by rintro rfl; exact e.2 (e.1 ▸ hpf)
            simp [Dict.get?_cons, this]
          · simp only [e, if_false]
        · intro u e hu hnf
          have : p ≠ p' := by rintro rfl; exact hnf (e ▸ hpf)
          simp only [Dict.get?_cons, this, if_false] at hu
          have := h2 u e hu (by rw [hf]; exact hnf)
          rwa [hns] at this
        · simp only [Dict.keys_cons, List.mem_cons]
          constructor
          · rintro (h | ⟨a, b, c⟩)
            · exact Or.inl h
            · exact Or.inr ⟨a, b, Or.inr c⟩
          · rintro (h | ⟨a, b, rfl | c⟩)
            · exact Or.inl h
            · exact Or.inl (b ▸ hpf)
            · exact Or.inr ⟨a, b, c⟩
      · simp only [hl, hf]
        by_cases hp : p = p'
        · subst hp
          have hrest : Dict.get? rest p = none := by rw [Dict.get?_eq_none_iff]; exact hv.1
          refine ⟨?_, ?_, ?_⟩
          · by_cases e : n = n'
            · subst e
              simp [hnf, Dict.get?_cons, hrest, hw, Except.toOption]
            · simp [e]
          · intro u e hu _
            simp [Dict.get?_cons] at hu; subst hu; exact ⟨w, hw⟩
          · have hm : p ∉ Dict.keys rest := hv.1
            by_cases e : fx = true ∧ n = n'
            · obtain ⟨e1, e2⟩ := e
              subst e2; simp [e1]
            · simp only [e, if_false, Dict.keys_cons, List.mem_cons, and_true, hm, and_false, or_false]
        · have hfix : p' ∈ (if fx = true ∧ n = n' then fixedOf s n ++ [p] else fixedOf s n') ↔
              p' ∈ fixedOf s n' := by
            split
            · rename_i e; rw [e.2]
              have : ¬ p' = p := fun h => hp h.symm
              simp [this]
            · rfl
          refine ⟨?_, ?_, ?_⟩
          · simp only [hfix, Dict.get?_cons, hp, if_false, and_false]
          · intro u e hu hnf
            simp only [Dict.get?_cons, hp, if_false] at hu
            have := h2 u e hu (by rw [hf, hfix]; exact hnf)
            rwa [hns] at this
          · rw [hfix]
            have : ¬ p' = p := fun h => hp h.symm
            simp [this]

/-- Lookup in a nested dictionary. -/
def look2 (d : Dict Name (Dict Name (Val α))) (n p : Name) : Option (Val α) :=
  (d.get? n).bind (·.get? p)

/-- Effect of a successful `update` loop (distinct keys at both levels). -/
theorem setNested_effect (st : List (Name × Dict Name (Val α))) (s : GState α) (hs : WF s) (fx : Bool)
    (hk : Dict.keys st |>.Nodup) (hv : ∀ q ∈ st, q.2.keys.Nodup)
    (hok : (s.setNested fx st).2 = none) :
    ∀ n' p', look (s.setNested fx st).1 n' p' =
        (if p' ∉ fixedOf s n' then
          match look2 st n' p' with
          | some v => (GState.normalise s.numSamples v).toOption
          | none => look s n' p'
         else look s n' p') ∧
      (∀ v, look2 st n' p' = some v → p' ∉ fixedOf s n' →
        ∃ w, GState.normalise s.numSamples v = .ok w) ∧
      (p' ∈ fixedOf (s.setNested fx st).1 n' ↔
        p' ∈ fixedOf s n' ∨ (fx = true ∧ (look2 st n' p').isSome = true)) := by
  induction st generalizing s with
  | nil => intro n' p'; simp [GState.setNested, look2]
  | cons q rest ih =>
    obtain ⟨n, vars⟩ := q
    intro n' p'
    simp only [Dict.keys_cons, List.nodup_cons] at hk
    have hvars : (Dict.keys vars).Nodup := hv (n, vars) (by simp)
    have hwf := setAll_wf vars s hs n fx
    have heff := setAll_effect vars s hs n fx hvars
    unfold GState.setNested at hok ⊢
    rcases hr : s.setAll n fx vars with ⟨s', e⟩
    rw [hr] at hwf hok heff
    cases e with
    | some e => simp at hok
    | none =>
      simp only at hok hwf heff ⊢
      obtain ⟨e1, e2, e3⟩ := heff trivial n' p'
      obtain ⟨h1, h2, h3⟩ := ih s' hwf.1 hk.2 (fun q hq => hv q (List.mem_cons_of_mem _ hq)) hok n' p'
      rw [h1, h3, hwf.2, e1]
      rw [hwf.2] at h2
      by_cases hn : n = n'
      · subst hn
        have hrest : Dict.get? rest n = none := by rw [Dict.get?_eq_none_iff]; exact hk.1
        have l2 : look2 rest n p' = none := by simp [look2, hrest]
        have l3 : look2 ((n, vars) :: rest) n p' = Dict.get? vars p' := by
          simp [look2, Dict.get?_cons]
        rw [l2, l3]
        refine ⟨?_, ?_, ?_⟩
        · simp
        · intro v hv' hnf; exact e2 v rfl hv' hnf
        · rw [e3]
          simp [← Dict.has_iff, Dict.has]
      · have l3 : look2 ((n, vars) :: rest) n' p' = look2 rest n' p' := by
          simp [look2, Dict.get?_cons, hn]
        have e4 : p' ∈ fixedOf s' n' ↔ p' ∈ fixedOf s n' := by rw [e3]; simp [hn]
        rw [l3]
        refine ⟨?_, ?_, ?_⟩
        · simp only [e4, hn, false_and, if_false]
        · intro v hv' hnf; exact h2 v hv' (by rw [e4]; exact hnf)
        · rw [e4]

theorem mapM_ok {β γ : Type} (f : β → Except Err γ) (g : β → γ) (l : List β)
    (h : ∀ x ∈ l, f x = .ok (g x)) : l.mapM f = .ok (l.map g) := by
  induction l with
  | nil => rfl
  | cons a l ih =>
    rw [List.mapM_cons, h a (by simp), ih (fun x hx => h x (List.mem_cons_of_mem _ hx))]
    rfl

/-- Row `i` of an array (total version). -/
def rowD (v : Val α) (i : Nat) : Val α :=
  match v with
  | .arr l => (l[i]?).getD .none
  | v => v

theorem row_ok {l : List (Val α)} {i : Nat} (h : i < l.length) :
    GState.row (.arr l) i = .ok (rowD (.arr l) i) := by
  simp [GState.row, rowD, List.getElem?_eq_getElem h]

/-- The single-sample state, explicitly. -/
def sampleOf (s : GState α) (i : Nat) : GState α :=
  { numSamples := 1, numParams := s.numParams, fixed := [],
    states := s.states.map fun q =>
      (q.1, q.2.map fun r => (r.1, if s.numSamples = 1 then r.2 else rowD r.2 i)) }

theorem get?_map_val {κ ν μ : Type} [DecidableEq κ] (f : ν → μ) (d : Dict κ ν) (k : κ) :
    Dict.get? (d.map fun r => (r.1, f r.2)) k = (Dict.get? d k).map f := by
  induction d with
  | nil => rfl
  | cons q d ih =>
    obtain ⟨k', v⟩ := q
    simp only [List.map_cons, Dict.get?_cons, ih]
    split <;> simp

theorem keys_map_val {κ ν μ : Type} (f : ν → μ) (d : Dict κ ν) :
    Dict.keys (d.map fun r => (r.1, f r.2)) = Dict.keys d := by
  simp [Dict.keys, List.map_map, Function.comp_def]

theorem look_sampleOf (s : GState α) (i : Nat) (n p : Name) :
    look (sampleOf s i) n p = (look s n p).map fun v => if s.numSamples = 1 then v else rowD v i := by
  unfold look sampleOf
  simp only
  rw [get?_map_val (fun d : Dict Name (Val α) => d.map fun r => (r.1, if s.numSamples = 1 then r.2 else rowD r.2 i))]
  cases h : s.states.get? n with
  | none => rfl
  | some d =>
    simp only [Option.map_some, Option.bind_some]
    exact get?_map_val (fun v => if s.numSamples = 1 then v else rowD v i) d p

theorem sampleOf_shape (s : GState α) (hs : Shape s) (i : Nat) : Shape (sampleOf s i) := by
  have hk : (sampleOf s i).states.keys = s.states.keys :=
    keys_map_val (fun d : Dict Name (Val α) =>
      (d.map fun (r : Name × Val α) => (r.1, if s.numSamples = 1 then r.2 else rowD r.2 i) :
        Dict Name (Val α))) s.states
  have hg : ∀ n d, (sampleOf s i).states.get? n = some d → ∃ d', s.states.get? n = some d' ∧ d.keys = d'.keys := by
    intro n d h
    unfold sampleOf at h; simp only at h
    rw [get?_map_val (fun d : Dict Name (Val α) => d.map fun r => (r.1, if s.numSamples = 1 then r.2 else rowD r.2 i))] at h
    cases h' : s.states.get? n with
    | none => simp [h'] at h
    | some d' =>
      simp [h'] at h
      refine ⟨d', rfl, ?_⟩
      rw [← h]
      exact keys_map_val (fun v => if s.numSamples = 1 then v else rowD v i) d'
  refine ⟨Nat.le_refl 1, hk ▸ hs.nodes, ?_, ?_, ?_, ?_⟩
  · intro n d h
    obtain ⟨d', h1, h2⟩ := hg n d h
    rw [h2]; exact hs.vars n d' h1
  · intro n h; rw [hk] at h; exact hs.dotN n h
  · intro n d h p hp
    obtain ⟨d', h1, h2⟩ := hg n d h
    rw [h2] at hp; exact hs.dotV n d' h1 p hp
  · intro h; exact absurd rfl h

theorem extractSample_ok (s : GState α) (hs : Shape s) (i : Nat) (hi : i < s.numSamples) :
    s.extractSample (i : Int) = .ok (sampleOf s i) := by
  unfold GState.extractSample
  have h0 : ¬ ((i : Int) < 0 ∨ (i : Int) ≥ s.numSamples) := by omega
  rw [if_neg h0]
  have : (s.states.mapM fun q => (do
      let d ← if s.numSamples = 1 then pure q.2 else GState.rowDict q.2 (i : Int).toNat
      return (q.1, d) : Except Err (Name × Dict Name (Val α)))) =
      .ok (s.states.map fun q =>
        (q.1, q.2.map fun r => (r.1, if s.numSamples = 1 then r.2 else rowD r.2 i))) := by
    apply mapM_ok
    rintro ⟨n, d⟩ hm
    have hd := Dict.get?_of_mem hs.nodes hm
    by_cases h1 : s.numSamples = 1
    · simp only [h1, if_true]
      simp [pure, Except.pure, bind, Except.bind]
    · simp only [h1, if_false, Int.toNat_natCast]
      have : GState.rowDict d i = .ok (d.map fun r => (r.1, rowD r.2 i)) := by
        unfold GState.rowDict
        apply mapM_ok
        rintro ⟨p, v⟩ hm2
        have hp := Dict.get?_of_mem (hs.vars n d hd) hm2
        obtain ⟨l, rfl, hl⟩ := hs.rows h1 n p v (by simp [look, hd, hp])
        simp only
        rw [row_ok (by omega)]
        rfl
      rw [this]; rfl
  simp only at this ⊢
  rw [this]; rfl

theorem getNodeState_ok (s : GState α) (hs : Shape s) (n : Name) (d) (hd : s.states.get? n = some d)
    (i : Nat) (hi : i < s.numSamples) :
    s.getNodeState n (i : Int) =
      .ok (d.map fun r => (r.1, if s.numSamples = 1 then r.2 else rowD r.2 i)) := by
  unfold GState.getNodeState
  have h0 : ¬ ((i : Int) < 0 ∨ (i : Int) ≥ s.numSamples) := by omega
  simp only [hd, h0, if_false]
  by_cases h1 : s.numSamples = 1
  · simp [h1]
  · simp only [h1, if_false, Int.toNat_natCast]
    unfold GState.rowDict
    apply mapM_ok
    rintro ⟨p, v⟩ hm2
    have hp := Dict.get?_of_mem (hs.vars n d hd) hm2
    obtain ⟨l, rfl, hl⟩ := hs.rows h1 n p v (by simp [look, hd, hp])
    simp only
    rw [row_ok (by omega)]
    rfl

theorem iterate_ok (s : GState α) (hs : Shape s) :
    s.iterate = .ok ((List.range s.numSamples).map (sampleOf s)) := by
  unfold GState.iterate
  apply mapM_ok
  intro i hi
  exact extractSample_ok s hs i (List.mem_range.1 hi)

end LCL.GraphLemmas
