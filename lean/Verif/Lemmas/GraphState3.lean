import Verif.Lemmas.GraphState2

/-! Helper lemmas: sequences of writes, flattening, concatenation. -/

namespace LCL.GraphLemmas
open LCL LCL.GraphSpec
variable {α : Type}

/-- A stored parameter with its value. -/
abbrev Tri (α : Type) := Name × Name × Val α

/-- The stored parameters in storage order. -/
def flat (s : GState α) : List (Tri α) :=
  s.states.flatMap fun q => q.2.map fun r => (q.1, r.1, r.2)

theorem mem_flat_iff (s : GState α) (hs : Shape s) (n p : Name) (v : Val α) :
    (n, p, v) ∈ flat s ↔ look s n p = some v := by
  unfold flat look
  simp only [List.mem_flatMap, List.mem_map, Prod.mk.injEq]
  constructor
  · rintro ⟨⟨n', d⟩, h1, ⟨p', v'⟩, h2, rfl, rfl, rfl⟩
    have hd := Dict.get?_of_mem hs.nodes h1
    rw [hd]; exact Dict.get?_of_mem (hs.vars _ _ hd) h2
  · intro h
    cases hd : s.states.get? n with
    | none => simp [hd] at h
    | some d =>
      simp only [hd, Option.bind_some] at h
      exact ⟨(n, d), Dict.mem_of_get? hd, (p, v), Dict.mem_of_get? h, rfl, rfl, rfl⟩

theorem flat_pairs (s : GState α) : (flat s).map (fun t => (t.1, t.2.1)) = pairs s := by
  unfold flat pairs
  rw [List.map_flatMap]
  congr 1
  funext q
  simp [List.map_map, Function.comp_def]

theorem flat_nodup (s : GState α) (hs : Shape s) : ((flat s).map fun t => (t.1, t.2.1)).Nodup := by
  rw [flat_pairs]; exact pairs_nodup s hs

/-- No parameter is fixed. -/
def NoFixed (s : GState α) : Prop := ∀ n, fixedOf s n = []

/-- Value of a parameter in a list of writes (distinct names). -/
def lookL (l : List (Tri α)) (n p : Name) : Option (Val α) :=
  (l.find? fun t => t.1 == n && t.2.1 == p).map (·.2.2)

theorem lookL_cons (t : Tri α) (l : List (Tri α)) (n p : Name) :
    lookL (t :: l) n p = if t.1 = n ∧ t.2.1 = p then some t.2.2 else lookL l n p := by
  unfold lookL
  rw [List.find?_cons]
  by_cases h : t.1 = n ∧ t.2.1 = p
  · simp [h.1, h.2]
  · have : (t.1 == n && t.2.1 == p) = false := by
      rw [Bool.and_eq_false_iff]
      by_cases h1 : t.1 = n
      · right; simp; exact fun h2 => h ⟨h1, h2⟩
      · left; simp [h1]
    simp [this, h]

theorem lookL_mem {l : List (Tri α)} (hl : (l.map fun t => (t.1, t.2.1)).Nodup) (n p : Name) (v : Val α) :
    lookL l n p = some v ↔ (n, p, v) ∈ l := by
  induction l with
  | nil => simp [lookL]
  | cons t l ih =>
    obtain ⟨a, b, c⟩ := t
    simp only [List.map_cons, List.nodup_cons] at hl
    rw [lookL_cons]
    by_cases h : a = n ∧ b = p
    · obtain ⟨rfl, rfl⟩ := h
      simp only [and_self, if_true, Option.some.injEq, List.mem_cons, Prod.mk.injEq, true_and]
      constructor
      · intro e; exact Or.inl e.symm
      · rintro (e | e)
        · exact e.symm
        · exact absurd (List.mem_map.2 ⟨_, e, rfl⟩) hl.1
    · simp only [h, if_false, ih hl.2, List.mem_cons, Prod.mk.injEq]
      constructor
      · exact Or.inr
      · rintro (⟨rfl, rfl, _⟩ | e)
        · exact absurd ⟨rfl, rfl⟩ h
        · exact e

theorem lookL_flat (s : GState α) (hs : Shape s) (n p : Name) : lookL (flat s) n p = look s n p := by
  cases h : look s n p with
  | none =>
    cases h2 : lookL (flat s) n p with
    | none => rfl
    | some v =>
      rw [lookL_mem (flat_nodup s hs), mem_flat_iff s hs, h] at h2; cases h2
  | some v => rw [lookL_mem (flat_nodup s hs), mem_flat_iff s hs, h]

/-- A list of writes on a state without fixed parameters. -/
structure Writable (s : GState α) (l : List (Tri α)) : Prop where
  wf : WF s
  nofix : NoFixed s
  dots : ∀ t ∈ l, hasDot t.1 = false ∧ hasDot t.2.1 = false
  ok : ∀ t ∈ l, ∃ w, GState.normalise s.numSamples t.2.2 = .ok w

/-- One write of a list. -/
theorem set_one (s : GState α) (t : Tri α) (l : List (Tri α)) (h : Writable s (t :: l)) :
    (s.set t.1 t.2.1 t.2.2 false).2 = none ∧ Writable (s.set t.1 t.2.1 t.2.2 false).1 l ∧
    (s.set t.1 t.2.1 t.2.2 false).1.numSamples = s.numSamples ∧
    ∀ n p, look (s.set t.1 t.2.1 t.2.2 false).1 n p =
      if t.1 = n ∧ t.2.1 = p then (GState.normalise s.numSamples t.2.2).toOption else look s n p := by
  have hd := h.dots t (by simp)
  obtain ⟨w, hw⟩ := h.ok t (by simp)
  have heff := set_effect s h.wf t.1 t.2.1 t.2.2 false
  have hok : (s.set t.1 t.2.1 t.2.2 false).2 = none := by
    rw [set_error_iff s h.wf]; exact ⟨by simp [hd.1, hd.2], Or.inr ⟨w, hw⟩⟩
  obtain ⟨hwf, hns, hc | ⟨_, _, w', hw', hl, hf⟩⟩ := heff
  · exfalso
    rcases hc.1 with hc | hc | ⟨e, hc⟩
    · simp [hd.1, hd.2] at hc
    · rw [h.nofix] at hc; simp at hc
    · rw [hw] at hc; cases hc
  · refine ⟨hok, ⟨hwf, ?_, ?_, ?_⟩, hns, ?_⟩
    · intro n; rw [hf]; simp; exact h.nofix n
    · intro t ht; exact h.dots t (List.mem_cons_of_mem _ ht)
    · intro t ht; rw [hns]; exact h.ok t (List.mem_cons_of_mem _ ht)
    · intro n p; rw [hl, hw']; rfl

theorem init_writable {n : Int} {s : GState α} (h : GState.init n = .ok s) (l : List (Tri α))
    (hd : ∀ t ∈ l, hasDot t.1 = false ∧ hasDot t.2.1 = false)
    (hok : ∀ t ∈ l, ∃ w, GState.normalise s.numSamples t.2.2 = .ok w) : Writable s l := by
  refine ⟨init_wf h, ?_, hd, hok⟩
  intro n
  unfold GState.init at h
  split at h
  · cases h
  · cases h; rfl

theorem init_look {n : Int} {s : GState α} (h : GState.init n = .ok s) (x y : Name) :
    look s x y = none := by
  unfold GState.init at h
  split at h
  · cases h
  · cases h; rfl

theorem init_ok {n : Int} (h : 1 ≤ n) : ∃ s : GState α, GState.init n = .ok s := by
  unfold GState.init; rw [if_neg (by omega)]; exact ⟨_, rfl⟩

/-- Flattened dictionary of a list of writes. -/
def keyed (l : List (Tri α)) : Dict Name (Val α) := l.map fun t => (GState.extendedName t.1 t.2.1, t.2.2)

theorem ext_inj {a b a' b' : Name} (ha : hasDot a = false) (hb : hasDot b = false)
    (ha' : hasDot a' = false) (hb' : hasDot b' = false)
    (h : GState.extendedName a b = GState.extendedName a' b') : a = a' ∧ b = b' := by
  have := splitDot_join ha hb
  unfold GState.extendedName at h
  rw [h, splitDot_join ha' hb'] at this
  simp only [List.cons.injEq, and_true] at this
  exact ⟨this.1.symm, this.2.symm⟩

theorem keyed_nodup (l : List (Tri α)) (hl : (l.map fun t => (t.1, t.2.1)).Nodup)
    (hd : ∀ t ∈ l, hasDot t.1 = false ∧ hasDot t.2.1 = false) : (Dict.keys (keyed l)).Nodup := by
  induction l with
  | nil => simp [keyed]
  | cons t l ih =>
    simp only [List.map_cons, List.nodup_cons] at hl
    simp only [keyed, List.map_cons, Dict.keys_cons, List.nodup_cons]
    refine ⟨?_, ih hl.2 (fun t ht => hd t (List.mem_cons_of_mem _ ht))⟩
    intro hm
    simp only [Dict.keys, List.map_map, List.mem_map, Function.comp] at hm
    obtain ⟨t', ht', he⟩ := hm
    have h1 := hd t (by simp)
    have h2 := hd t' (List.mem_cons_of_mem _ ht')
    have := ext_inj h2.1 h2.2 h1.1 h1.2 he
    exact hl.1 (List.mem_map.2 ⟨t', ht', by simp [this.1, this.2]⟩)

theorem set_append {κ ν : Type} [DecidableEq κ] (d : Dict κ ν) (k : κ) (v : ν) (h : k ∉ Dict.keys d) :
    Dict.set d k v = d ++ [(k, v)] := by
  induction d with
  | nil => rfl
  | cons q d ih =>
    obtain ⟨k', v'⟩ := q
    simp only [Dict.keys_cons, List.mem_cons, not_or] at h
    have : k' ≠ k := fun e => h.1 e.symm
    simp [Dict.set, this, ih h.2]

theorem foldl_set_append {κ ν : Type} [DecidableEq κ] (l : List (κ × ν)) (d : Dict κ ν)
    (h : (Dict.keys (d ++ l)).Nodup) :
    l.foldl (fun acc q => Dict.set acc q.1 q.2) d = d ++ l := by
  induction l generalizing d with
  | nil => simp
  | cons q l ih =>
    obtain ⟨k, v⟩ := q
    simp only [List.foldl_cons]
    have hk : k ∉ Dict.keys d := by
      intro hm
      rw [Dict.keys, List.map_append, List.nodup_append] at h
      exact h.2.2 k hm k (by simp) rfl
    rw [set_append d k v hk, ih]
    · simp
    · simpa using h

theorem toDict_eq (s : GState α) (hs : Shape s) : s.toDict = keyed (flat s) := by
  have hfold : ∀ (st : Dict Name (Dict Name (Val α))) (acc : Dict Name (Val α)),
      st.foldl (fun acc q => q.2.foldl (fun acc r => Dict.set acc (GState.extendedName q.1 r.1) r.2) acc) acc =
      (keyed (st.flatMap fun q => q.2.map fun r => (q.1, r.1, r.2))).foldl
        (fun acc q => Dict.set acc q.1 q.2) acc := by
    intro st
    induction st with
    | nil => intro acc; rfl
    | cons q st ih =>
      intro acc
      simp only [List.foldl_cons, List.flatMap_cons, keyed, List.map_append, List.foldl_append]
      rw [ih]
      congr 1
      simp only [List.map_map]
      generalize q.2 = d
      induction d generalizing acc with
      | nil => rfl
      | cons r d ih2 => simp only [List.foldl_cons, List.map_cons, Function.comp]; exact ih2 _
  unfold GState.toDict
  have := hfold s.states []
  simp only at this ⊢
  rw [this]
  change (keyed (flat s)).foldl _ [] = _
  rw [foldl_set_append]
  · rfl
  · simp only [List.nil_append]
    apply keyed_nodup _ (flat_nodup s hs)
    rintro ⟨n, p, v⟩ hm
    exact look_dotfree hs ((mem_flat_iff s hs n p v).1 hm)

/-- The loop of `from_dict` over a flattened dictionary. -/
theorem fromDictLoop_flat (l : List (Tri α)) (hl : (l.map fun t => (t.1, t.2.1)).Nodup) (s : GState α)
    (h : Writable s l) :
    ∃ t, s.fromDictLoop ((keyed l).map fun q => (q.1, .val q.2)) = .ok t ∧ WF t ∧
      t.numSamples = s.numSamples ∧ ∀ n p, look t n p =
        match lookL l n p with
        | some v => (GState.normalise s.numSamples v).toOption
        | none => look s n p := by
  induction l generalizing s with
  | nil => exact ⟨s, rfl, h.wf, rfl, fun n p => by simp [lookL]⟩
  | cons t l ih =>
    simp only [List.map_cons, List.nodup_cons] at hl
    obtain ⟨h1, h2, h3, h4⟩ := set_one s t l h
    have hd := h.dots t (by simp)
    obtain ⟨u, hu, hw, hns, hlk⟩ := ih hl.2 _ h2
    refine ⟨u, ?_, hw, hns.trans h3, ?_⟩
    · simp only [keyed, List.map_cons]
      unfold GState.fromDictLoop
      have e1 : hasDot (GState.extendedName t.1 t.2.1) = true := hasDot_join _ _
      have e2 : splitDot (GState.extendedName t.1 t.2.1) = [t.1, t.2.1] := splitDot_join hd.1 hd.2
      simp only [e1, if_true, e2]
      rcases hr : s.set t.1 t.2.1 t.2.2 false with ⟨s', e⟩
      rw [hr] at h1 hu
      simp only at h1; subst h1
      exact hu
    · intro n p
      rw [hlk, lookL_cons, h3, h4]
      by_cases e : t.1 = n ∧ t.2.1 = p
      · obtain ⟨rfl, rfl⟩ := e
        have : lookL l t.1 t.2.1 = none := by
          cases hh : lookL l t.1 t.2.1 with
          | none => rfl
          | some v =>
            rw [lookL_mem hl.2] at hh
            exact absurd (List.mem_map.2 ⟨_, hh, rfl⟩) hl.1
        simp [this]
      · simp [e]

/-- Stored values are stored unchanged again. -/
theorem normalise_stored (s : GState α) (hs : Shape s) {n p : Name} {v : Val α}
    (h : look s n p = some v) : GState.normalise s.numSamples v = .ok v := by
  unfold GState.normalise
  by_cases h1 : s.numSamples = 1
  · simp [h1]
  · obtain ⟨l, rfl, hl⟩ := hs.rows h1 n p v h
    simp [h1, hl]

/-- Columns of a table made of array parameters. -/
def columns (l : List (Name × Name × List (Val α))) : Dict Name (List (Val α)) :=
  l.map fun t => (GState.extendedName t.1 t.2.1, t.2.2)

def asArr (l : List (Name × Name × List (Val α))) : List (Tri α) := l.map fun t => (t.1, t.2.1, .arr t.2.2)

theorem fromTableLoop_flat (rows : Nat) (hr : rows ≠ 1) (l : List (Name × Name × List (Val α)))
    (hl : ((asArr l).map fun t => (t.1, t.2.1)).Nodup) (s : GState α) (h : Writable s (asArr l)) :
    ∃ t, GState.fromTableLoop rows s (columns l) = .ok t ∧ WF t ∧
      t.numSamples = s.numSamples ∧ ∀ n p, look t n p =
        match lookL (asArr l) n p with
        | some v => (GState.normalise s.numSamples v).toOption
        | none => look s n p := by
  induction l generalizing s with
  | nil => exact ⟨s, rfl, h.wf, rfl, fun n p => by simp [lookL, asArr]⟩
  | cons t l ih =>
    simp only [asArr, List.map_cons, List.nodup_cons] at hl
    obtain ⟨h1, h2, h3, h4⟩ := set_one s (t.1, t.2.1, .arr t.2.2) (asArr l) h
    have hd := h.dots (t.1, t.2.1, .arr t.2.2) (by simp [asArr])
    obtain ⟨u, hu, hw, hns, hlk⟩ := ih hl.2 _ h2
    simp only at h1 h2 h3 h4 hd hu hlk hns
    refine ⟨u, ?_, hw, hns.trans h3, ?_⟩
    · simp only [columns, List.map_cons]
      unfold GState.fromTableLoop
      have e2 : splitDot (GState.extendedName t.1 t.2.1) = [t.1, t.2.1] := splitDot_join hd.1 hd.2
      simp only [e2, hr, if_false]
      rcases hr : s.set t.1 t.2.1 (.arr t.2.2) false with ⟨s', e⟩
      rw [hr] at h1 hu
      simp only at h1; subst h1
      exact hu
    · intro n p
      rw [hlk, show asArr (t :: l) = (t.1, t.2.1, .arr t.2.2) :: asArr l from rfl, lookL_cons, h3, h4]
      by_cases e : t.1 = n ∧ t.2.1 = p
      · obtain ⟨rfl, rfl⟩ := e
        have : lookL (asArr l) t.1 t.2.1 = none := by
          cases hh : lookL (asArr l) t.1 t.2.1 with
          | none => rfl
          | some v =>
            have hh := (lookL_mem (l := asArr l) hl.2 _ _ _).1 hh
            exact absurd (List.mem_map.2 ⟨_, hh, rfl⟩) hl.1
        simp [this]
      · simp [e]

/-- Filling the concatenated state. -/
theorem fromListFill_ok (gs : List (GState α)) (names : List (Name × Name)) (hl : names.Nodup)
    (col : Name → Name → List (Val α))
    (hcol : ∀ q ∈ names, GState.concatColumn gs (GState.extendedName q.1 q.2) = .ok (col q.1 q.2))
    (s : GState α) (h : Writable s (names.map fun q => (q.1, q.2, .arr (col q.1 q.2)))) :
    ∃ t, GState.fromListFill gs s (names.map fun q => GState.extendedName q.1 q.2) = .ok t ∧ WF t ∧
      t.numSamples = s.numSamples ∧ ∀ n p, look t n p =
        if (n, p) ∈ names then some (.arr (col n p)) else look s n p := by
  induction names generalizing s with
  | nil => exact ⟨s, rfl, h.wf, rfl, fun n p => by simp⟩
  | cons q names ih =>
    simp only [List.nodup_cons] at hl
    obtain ⟨h1, h2, h3, h4⟩ := set_one s (q.1, q.2, .arr (col q.1 q.2)) _ h
    have hd := h.dots (q.1, q.2, .arr (col q.1 q.2)) (by simp)
    obtain ⟨w, hw0⟩ := h.ok (q.1, q.2, .arr (col q.1 q.2)) (by simp)
    have hw1 : w = .arr (col q.1 q.2) := by
      simp only [GState.normalise] at hw0
      split at hw0
      · cases hw0; rfl
      · split at hw0
        · cases hw0
        · cases hw0; rfl
    subst hw1
    obtain ⟨u, hu, hw, hns, hlk⟩ := ih hl.2 (fun q hq => hcol q (List.mem_cons_of_mem _ hq)) _ h2
    simp only at h1 h2 h3 h4 hd hu hlk hns hw0
    refine ⟨u, ?_, hw, hns.trans h3, ?_⟩
    · simp only [List.map_cons]
      unfold GState.fromListFill
      have e2 : splitDot (GState.extendedName q.1 q.2) = [q.1, q.2] := splitDot_join hd.1 hd.2
      simp only [e2, hcol q (by simp), bind, Except.bind]
      rcases hr : s.set q.1 q.2 (.arr (col q.1 q.2)) false with ⟨s', e⟩
      rw [hr] at h1 hu
      simp only at h1; subst h1
      exact hu
    · intro n p
      rw [hlk, h4]
      by_cases e : (n, p) = q
      · subst e; simp [hl.1, hw0, Except.toOption]
      · have e' : ¬ (q.1 = n ∧ q.2 = p) := by
          rintro ⟨rfl, rfl⟩; exact e rfl
        simp [e, e']

theorem allNames_eq (s : GState α) : s.allNames = (pairs s).map fun q => GState.extendedName q.1 q.2 := by
  unfold GState.allNames pairs
  rw [List.map_flatMap]
  congr 1
  funext q
  simp [List.map_map, Function.comp_def]

theorem mem_allNames (s : GState α) (hs : Shape s) {n p : Name} (hn : hasDot n = false) (hp : hasDot p = false) :
    GState.extendedName n p ∈ s.allNames ↔ (n, p) ∈ pairs s := by
  rw [allNames_eq, List.mem_map]
  constructor
  · rintro ⟨⟨a, b⟩, hm, he⟩
    obtain ⟨v, hv⟩ := (mem_pairs_iff s hs a b).1 hm
    have := look_dotfree hs hv
    have := ext_inj this.1 this.2 hn hp he
    rw [← this.1, ← this.2]; exact hm
  · intro h; exact ⟨_, h, rfl⟩

theorem getItem_look (s : GState α) (hs : Shape s) {n p : Name} {v : Val α} (h : look s n p = some v) :
    s.getItem (GState.extendedName n p) = .ok (.value v) := by
  have hr := read_eq_look s hs n p
  rw [h] at hr
  unfold readParam at hr
  unfold GState.extendedName
  split at hr
  · rename_i w heq; cases hr; exact heq
  · cases hr

theorem concatColumn_ok (gs : List (GState α)) (n p : Name) (hs : ∀ g ∈ gs, Shape g)
    (hv : ∀ g ∈ gs, ∃ v, look g n p = some v) :
    GState.concatColumn gs (GState.extendedName n p) =
      .ok (gs.flatMap fun g => ((look g n p).map GState.atLeast1d).getD []) := by
  unfold GState.concatColumn
  have := mapM_ok (GState.partOf (GState.extendedName n p))
    (fun g => ((look g n p).map GState.atLeast1d).getD []) gs (by
      intro g hg
      obtain ⟨v, hv⟩ := hv g hg
      simp only [GState.partOf, getItem_look g (hs g hg) hv, hv, Option.map_some, Option.getD_some])
  rw [this]
  simp [bind, Except.bind, pure, Except.pure, List.flatMap_def]

theorem fromListCollect_ok (ns : List Name) (gs : List (GState α))
    (h : ∀ g ∈ gs, ∀ x, x ∈ g.allNames ↔ x ∈ ns) :
    GState.fromListCollect (some ns) (gs.map .graph) = .ok (ns, gs) := by
  induction gs with
  | nil => rfl
  | cons g gs ih =>
    have h1 := h g (by simp)
    have hc : ((ns.all fun x => g.allNames.contains x) && (g.allNames.all fun x => ns.contains x)) = true := by
      rw [Bool.and_eq_true, List.all_eq_true, List.all_eq_true]
      exact ⟨fun x hx => by simpa using (h1 x).2 hx, fun x hx => by simpa using (h1 x).1 hx⟩
    simp only [List.map_cons]
    unfold GState.fromListCollect
    simp only [bind, Except.bind, hc, if_true, pure, Except.pure]
    rw [ih (fun g hg => h g (List.mem_cons_of_mem _ hg))]

theorem fromListCollect_bad (ns : List Name) (gs : List (GState α))
    (h : ∃ g ∈ gs, ¬ ∀ x, x ∈ g.allNames ↔ x ∈ ns) :
    GState.fromListCollect (some ns) (gs.map .graph) = .error .valueError := by
  induction gs with
  | nil => obtain ⟨g, hg, _⟩ := h; simp at hg
  | cons g gs ih =>
    simp only [List.map_cons]
    unfold GState.fromListCollect
    by_cases hc : ((ns.all fun x => g.allNames.contains x) && (g.allNames.all fun x => ns.contains x)) = true
    · simp only [bind, Except.bind, hc, if_true]
      rw [ih]
      obtain ⟨g', hg', hb⟩ := h
      rcases List.mem_cons.1 hg' with rfl | hg'
      · exfalso; apply hb
        rw [Bool.and_eq_true, List.all_eq_true, List.all_eq_true] at hc
        intro x; exact ⟨fun hx => by simpa using hc.2 x hx, fun hx => by simpa using hc.1 x hx⟩
      · exact ⟨g', hg', hb⟩
    · simp only [bind, Except.bind, hc]; simp

end LCL.GraphLemmas
