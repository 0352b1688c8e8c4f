import Verif.Lemmas.GraphState3

/-!
# Property C07: `extract_parameters`
-/

namespace LCL.GraphProps
open LCL LCL.GraphSpec LCL.GraphLemmas
variable {α : Type}

/-- Holders of the parameter name `p` among some stored parameters. -/
def holders (L : List (Tri α)) (p : Name) : List (Name × Val α) :=
  L.filterMap fun t => if t.2.1 = p then some (t.1, t.2.2) else none

theorem holders_append (L : List (Tri α)) (n p : Name) (v : Val α) (q : Name) :
    holders (L ++ [(n, p, v)]) q = if p = q then holders L q ++ [(n, v)] else holders L q := by
  unfold holders
  rw [List.filterMap_append]
  by_cases h : p = q <;> simp [h]

theorem mem_holders (L : List (Tri α)) (p n : Name) (v : Val α) :
    (n, v) ∈ holders L p ↔ (n, p, v) ∈ L := by
  unfold holders
  simp only [List.mem_filterMap]
  constructor
  · rintro ⟨⟨a, b, c⟩, hm, h⟩
    simp only at h
    split at h
    · rename_i hb; cases h; subst hb; exact hm
    · cases h
  · intro h; exact ⟨(n, p, v), h, by simp⟩

/-- The invariant of the second loop. -/
structure Inv (R0 : Dict Name (Val α)) (singles : List Name) (L : List (Tri α))
    (acc : GState.ExtractAcc α) : Prop where
  nodup : acc.1.keys.Nodup
  first : ∀ p, p ∈ singles → acc.2.get? p = ((holders L p).head?).map (·.1)
  res : ∀ key v, acc.1.get? key = some v ↔
    R0.get? key = some v ∨ (key ∈ singles ∧ ∃ n, holders L key = [(n, v)]) ∨
    (∃ n p, key = GState.extendedName n p ∧ p ∈ singles ∧ (n, v) ∈ holders L p ∧
      2 ≤ (holders L p).length)

theorem opt_ext {ν : Type} {o o' : Option ν} (h : ∀ v, o = some v ↔ o' = some v) : o = o' := by
  cases o with
  | none =>
    cases o' with
    | none => rfl
    | some v => exact absurd ((h v).2 rfl) (by simp)
  | some v => exact ((h v).1 rfl).symm

theorem inv_step (R0 : Dict Name (Val α)) (singles : List Name) (F : List (Tri α))
    (hF : ∀ t ∈ F, hasDot t.1 = false ∧ hasDot t.2.1 = false)
    (hFn : (F.map fun t => (t.1, t.2.1)).Nodup)
    (hsing : ∀ p ∈ singles, hasDot p = false)
    (hR0 : ∀ key v, R0.get? key = some v → ∃ n p, key = GState.extendedName n p ∧ (n, p, v) ∈ F)
    (L : List (Tri α)) (n p : Name) (v : Val α) (hL : ∀ t ∈ L ++ [(n, p, v)], t ∈ F)
    (acc : GState.ExtractAcc α) (h : Inv R0 singles L acc) :
    Inv R0 singles (L ++ [(n, p, v)]) (GState.extractStep singles acc n p v) := by
  have hfun : ∀ {a b : Name} {u w : Val α}, (a, b, u) ∈ F → (a, b, w) ∈ F → u = w := by
    intro a b u w h1 h2
    have e1 := (lookL_mem hFn a b u).2 h1
    have e2 := (lookL_mem hFn a b w).2 h2
    rw [e1] at e2; exact Option.some.inj e2
  have hnv : (n, p, v) ∈ F := hL _ (by simp)
  have hndot := hF _ hnv
  simp only at hndot
  have hR0dot : ∀ k, hasDot k = false → R0.get? k = none := by
    intro k hk
    cases hg : R0.get? k with
    | none => rfl
    | some w =>
      obtain ⟨a, b, rfl, _⟩ := hR0 k w hg
      unfold GState.extendedName at hk
      rw [hasDot_join] at hk; cases hk
  have hextdot : ∀ {a b k : Name}, k = GState.extendedName a b → hasDot k = true := by
    rintro a b k rfl; exact hasDot_join a b
  have hmemF : ∀ {q a : Name} {u : Val α}, (a, u) ∈ holders L q → (a, q, u) ∈ F := by
    intro q a u hm
    exact hL _ (List.mem_append_left _ ((mem_holders L q a u).1 hm))
  unfold GState.extractStep
  by_cases hp : p ∈ singles
  · rw [if_pos hp]
    have hfirst := h.first p hp
    cases hh : holders L p with
    | nil =>
      rw [hh] at hfirst
      simp only [List.head?_nil, Option.map_none] at hfirst
      rw [hfirst]
      refine ⟨Dict.nodup_set h.nodup _ _, ?_, ?_⟩
      · intro q hq
        simp only [Dict.get?_set, holders_append]
        by_cases hpq : p = q
        · subst hpq; simp [hh]
        · simp [hpq, h.first q hq]
      · intro key w
        simp only [Dict.get?_set]
        by_cases hk : p = key
        · subst hk
          rw [if_pos rfl, hR0dot p hndot.2, holders_append, if_pos rfl, hh]
          constructor
          · intro e; cases e
            exact Or.inr (Or.inl ⟨hp, n, rfl⟩)
          · rintro (e | ⟨_, m, e⟩ | ⟨a, b, e, _⟩)
            · cases e
            · simp at e; rw [e.2]
            · rw [hextdot e] at hndot; exact absurd hndot.2 (by simp)
        · rw [if_neg hk, h.res key w, holders_append, if_neg hk]
          constructor
          · rintro (e | e | ⟨a, b, e, hb, hm, hlen⟩)
            · exact Or.inl e
            · exact Or.inr (Or.inl e)
            · refine Or.inr (Or.inr ⟨a, b, e, hb, ?_⟩)
              have : ¬ p = b := by rintro rfl; rw [hh] at hm; simp at hm
              rw [holders_append, if_neg this]; exact ⟨hm, hlen⟩
          · rintro (e | e | ⟨a, b, e, hb, hm, hlen⟩)
            · exact Or.inl e
            · exact Or.inr (Or.inl e)
            · refine Or.inr (Or.inr ⟨a, b, e, hb, ?_⟩)
              have : ¬ p = b := by
                rintro rfl; rw [holders_append, if_pos rfl, hh] at hlen; simp at hlen
              rw [holders_append, if_neg this] at hm hlen; exact ⟨hm, hlen⟩
    | cons fv rest =>
      obtain ⟨f, v0⟩ := fv
      rw [hh] at hfirst
      simp only [List.head?_cons, Option.map_some] at hfirst
      rw [hfirst]
      have hfF : (f, p, v0) ∈ F := hmemF (by rw [hh]; simp)
      have hfdot := hF _ hfF
      simp only at hfdot
      -- the value after the step for a dotted name of `p` or anything else
      have hgoal : ∀ (res1 : Dict Name (Val α)), res1.keys.Nodup →
          (∀ key w, res1.get? key = some w ↔ R0.get? key = some w ∨
            (key ∈ singles ∧ key ≠ p ∧ ∃ m, holders L key = [(m, w)]) ∨
            (∃ a b, key = GState.extendedName a b ∧ b ∈ singles ∧ (a, w) ∈ holders L b ∧
              (b = p ∨ 2 ≤ (holders L b).length))) →
          Inv R0 singles (L ++ [(n, p, v)]) (res1.set (GState.extendedName n p) v, acc.2) := by
        intro res1 hnd hres
        refine ⟨Dict.nodup_set hnd _ _, ?_, ?_⟩
        · intro q hq
          simp only [holders_append]
          by_cases hpq : p = q
          · subst hpq; rw [if_pos rfl, hh, hfirst]; rfl
          · rw [if_neg hpq]; exact h.first q hq
        · intro key w
          simp only [Dict.get?_set]
          by_cases hk : GState.extendedName n p = key
          · subst hk
            rw [if_pos rfl]
            constructor
            · intro e; cases e
              refine Or.inr (Or.inr ⟨n, p, rfl, hp, ?_, ?_⟩)
              · rw [holders_append, if_pos rfl]; simp
              · rw [holders_append, if_pos rfl, hh]; simp
            · rintro (e | ⟨hs, _⟩ | ⟨a, b, e, hb, hm, hlen⟩)
              · obtain ⟨a, b, e1, e2⟩ := hR0 _ _ e
                have hab := hF _ e2
                obtain ⟨rfl, rfl⟩ := ext_inj hndot.1 hndot.2 hab.1 hab.2 e1
                rw [hfun hnv e2]
              · have := hsing _ hs
                rw [hextdot rfl] at this; cases this
              · have hmF : (a, b, w) ∈ F := hL _ ((mem_holders _ _ _ _).1 hm)
                have hab := hF _ hmF
                obtain ⟨rfl, rfl⟩ := ext_inj hndot.1 hndot.2 hab.1 hab.2 e
                rw [hfun hnv hmF]
          · rw [if_neg hk, hres key w]
            constructor
            · rintro (e | ⟨e, hne, m, e2⟩ | ⟨a, b, e, hb, hm, hlen⟩)
              · exact Or.inl e
              · exact Or.inr (Or.inl ⟨e, m, by rw [holders_append, if_neg (fun x => hne x.symm)]; exact e2⟩)
              · refine Or.inr (Or.inr ⟨a, b, e, hb, ?_⟩)
                rw [holders_append]
                by_cases hpb : p = b
                · subst hpb
                  rw [if_pos rfl]
                  refine ⟨List.mem_append_left _ hm, ?_⟩
                  rw [hh]; simp
                · rw [if_neg hpb]
                  refine ⟨hm, ?_⟩
                  rcases hlen with e | e
                  · exact absurd e.symm hpb
                  · exact e
            · rintro (e | ⟨e, m, e2⟩ | ⟨a, b, e, hb, hm, hlen⟩)
              · exact Or.inl e
              · refine Or.inr (Or.inl ⟨e, ?_, m, ?_⟩)
                · rintro rfl
                  rw [holders_append, if_pos rfl, hh] at e2
                  simp at e2
                · rw [holders_append] at e2
                  split at e2
                  · rename_i hpk; subst hpk; rw [hh] at e2; simp at e2
                  · exact e2
              · refine Or.inr (Or.inr ⟨a, b, e, hb, ?_⟩)
                rw [holders_append] at hm hlen
                by_cases hpb : p = b
                · subst hpb
                  rw [if_pos rfl] at hm
                  rcases List.mem_append.1 hm with hm | hm
                  · exact ⟨hm, Or.inl rfl⟩
                  · simp at hm
                    rw [hm.1] at e
                    exact absurd e.symm hk
                · rw [if_neg hpb] at hm hlen
                  exact ⟨hm, Or.inr hlen⟩
      cases rest with
      | nil =>
        have hv0 : acc.1.get? p = some v0 := (h.res p v0).2 (Or.inr (Or.inl ⟨hp, f, hh⟩))
        simp only [hv0]
        apply hgoal
        · exact Dict.nodup_erase (Dict.nodup_set h.nodup _ _) _
        · intro key w
          by_cases hkp : p = key
          · subst hkp
            rw [Dict.get?_erase_self (Dict.nodup_set h.nodup _ _), hR0dot p hndot.2]
            constructor
            · intro e; cases e
            · rintro (e | ⟨_, e, _⟩ | ⟨a, b, e, _⟩)
              · cases e
              · exact absurd rfl e
              · rw [hextdot e] at hndot; exact absurd hndot.2 (by simp)
          · rw [Dict.get?_erase_ne _ hkp, Dict.get?_set]
            by_cases hk : GState.extendedName f p = key
            · subst hk
              rw [if_pos rfl]
              constructor
              · intro e; cases e
                exact Or.inr (Or.inr ⟨f, p, rfl, hp, by rw [hh]; simp, Or.inl rfl⟩)
              · rintro (e | ⟨hs, _⟩ | ⟨a, b, e, hb, hm, _⟩)
                · obtain ⟨a, b, e1, e2⟩ := hR0 _ _ e
                  have hab := hF _ e2
                  obtain ⟨rfl, rfl⟩ := ext_inj hfdot.1 hfdot.2 hab.1 hab.2 e1
                  rw [hfun hfF e2]
                · have := hsing _ hs
                  rw [hextdot rfl] at this; cases this
                · have hmF := hmemF hm
                  have hab := hF _ hmF
                  obtain ⟨rfl, rfl⟩ := ext_inj hfdot.1 hfdot.2 hab.1 hab.2 e
                  rw [hfun hfF hmF]
            · rw [if_neg hk, h.res key w]
              constructor
              · rintro (e | ⟨e, e2⟩ | ⟨a, b, e, hb, hm, hlen⟩)
                · exact Or.inl e
                · exact Or.inr (Or.inl ⟨e, fun x => hkp x.symm, e2⟩)
                · exact Or.inr (Or.inr ⟨a, b, e, hb, hm, Or.inr hlen⟩)
              · rintro (e | ⟨e, _, e2⟩ | ⟨a, b, e, hb, hm, hlen⟩)
                · exact Or.inl e
                · exact Or.inr (Or.inl ⟨e, e2⟩)
                · rcases hlen with rfl | hlen
                  · rw [hh] at hm
                    simp at hm
                    rw [hm.1] at e
                    exact absurd e.symm hk
                  · exact Or.inr (Or.inr ⟨a, b, e, hb, hm, hlen⟩)
      | cons r2 rest =>
        have hnone : acc.1.get? p = none := by
          apply opt_ext
          intro w
          rw [h.res p w, hR0dot p hndot.2, hh]
          constructor
          · rintro (e | ⟨_, m, e⟩ | ⟨a, b, e, _⟩)
            · cases e
            · simp at e
            · rw [hextdot e] at hndot; exact absurd hndot.2 (by simp)
          · intro e; cases e
        simp only [hnone]
        apply hgoal
        · exact h.nodup
        · intro key w
          rw [h.res key w]
          constructor
          · rintro (e | ⟨e, m, e2⟩ | ⟨a, b, e, hb, hm, hlen⟩)
            · exact Or.inl e
            · refine Or.inr (Or.inl ⟨e, ?_, m, e2⟩)
              rintro rfl; rw [hh] at e2; simp at e2
            · exact Or.inr (Or.inr ⟨a, b, e, hb, hm, Or.inr hlen⟩)
          · rintro (e | ⟨e, _, e2⟩ | ⟨a, b, e, hb, hm, hlen⟩)
            · exact Or.inl e
            · exact Or.inr (Or.inl ⟨e, e2⟩)
            · refine Or.inr (Or.inr ⟨a, b, e, hb, hm, ?_⟩)
              rcases hlen with rfl | hlen
              · rw [hh]; simp
              · exact hlen
  · rw [if_neg hp]
    have hold : ∀ q ∈ singles, holders (L ++ [(n, p, v)]) q = holders L q := by
      intro q hq
      rw [holders_append, if_neg]
      rintro rfl; exact hp hq
    refine ⟨h.nodup, ?_, ?_⟩
    · intro q hq; rw [hold q hq]; exact h.first q hq
    · intro key w
      rw [h.res key w]
      constructor
      · rintro (e | ⟨e, e2⟩ | ⟨a, b, e, hb, e2⟩)
        · exact Or.inl e
        · exact Or.inr (Or.inl ⟨e, by rw [hold key e]; exact e2⟩)
        · exact Or.inr (Or.inr ⟨a, b, e, hb, by rw [hold b hb]; exact e2⟩)
      · rintro (e | ⟨e, e2⟩ | ⟨a, b, e, hb, e2⟩)
        · exact Or.inl e
        · exact Or.inr (Or.inl ⟨e, by rw [hold key e] at e2; exact e2⟩)
        · exact Or.inr (Or.inr ⟨a, b, e, hb, by rw [hold b hb] at e2; exact e2⟩)

theorem inv_fold (R0 : Dict Name (Val α)) (singles : List Name) (F : List (Tri α))
    (hF : ∀ t ∈ F, hasDot t.1 = false ∧ hasDot t.2.1 = false)
    (hFn : (F.map fun t => (t.1, t.2.1)).Nodup)
    (hsing : ∀ p ∈ singles, hasDot p = false)
    (hR0 : ∀ key v, R0.get? key = some v → ∃ n p, key = GState.extendedName n p ∧ (n, p, v) ∈ F) :
    ∀ (M L : List (Tri α)) (acc : GState.ExtractAcc α), L ++ M = F → Inv R0 singles L acc →
      Inv R0 singles F (M.foldl (fun acc t => GState.extractStep singles acc t.1 t.2.1 t.2.2) acc) := by
  intro M
  induction M with
  | nil => intro L acc e h; simp at e; subst e; exact h
  | cons t M ih =>
    intro L acc e h
    rw [List.foldl_cons]
    apply ih (L ++ [(t.1, t.2.1, t.2.2)])
    · rw [← e]; simp
    · apply inv_step R0 singles F hF hFn hsing hR0
      · intro u hu
        rw [← e]
        rcases List.mem_append.1 hu with hu | hu
        · exact List.mem_append_left _ hu
        · simp at hu; subst hu; simp
      · exact h

theorem extractLoop_flat (s : GState α) (singles : List Name) (acc : GState.ExtractAcc α) :
    GState.extractLoop singles acc s.states =
      (flat s).foldl (fun acc t => GState.extractStep singles acc t.1 t.2.1 t.2.2) acc := by
  unfold GState.extractLoop flat
  generalize s.states = st
  induction st generalizing acc with
  | nil => rfl
  | cons q st ih =>
    rw [List.foldl_cons, List.flatMap_cons, List.foldl_append, ih, List.foldl_map]

/-- First loop: what it requires and what it returns. -/
theorem extractFull_spec (s : GState α) (hs : Shape s) :
    ∀ (P : List Name) (R : Dict Name (Val α)) (S : List Name),
      (∀ key v, R.get? key = some v → ∃ n p, key = GState.extendedName n p ∧ look s n p = some v) →
      ((∀ q ∈ P, hasDot q = true → ∃ n p v, q = GState.extendedName n p ∧ look s n p = some v) →
        ∃ R' S', s.extractFull P R S = .ok (R', S') ∧
          (∀ q, q ∈ S' ↔ q ∈ S ∨ (q ∈ P ∧ hasDot q = false)) ∧
          (R.keys.Nodup → R'.keys.Nodup) ∧
          (∀ key v, R'.get? key = some v ↔ R.get? key = some v ∨
            (key ∈ P ∧ ∃ n p, key = GState.extendedName n p ∧ look s n p = some v))) ∧
      ((∃ q ∈ P, hasDot q = true ∧ ¬ ∃ n p v, q = GState.extendedName n p ∧ look s n p = some v) →
        ∃ e, s.extractFull P R S = .error e) := by
  intro P
  induction P with
  | nil =>
    intro R S hR
    refine ⟨fun _ => ⟨R, S, rfl, by simp, id, by simp⟩, ?_⟩
    rintro ⟨q, hq, _⟩; simp at hq
  | cons cur P ih =>
    intro R S hR
    by_cases hd : hasDot cur = true
    · by_cases hex : ∃ n p v, cur = GState.extendedName n p ∧ look s n p = some v
      · obtain ⟨n, p, v, hcur, hl⟩ := hex
        have hnp := look_dotfree hs hl
        have hsplit : splitDot cur = [n, p] := by rw [hcur]; exact splitDot_join hnp.1 hnp.2
        have hlook : (s.states.get? n).bind (·.get? p) = some v := hl
        have hstep : ∀ S, s.extractFull (cur :: P) R S = s.extractFull P (R.set cur v) S := by
          intro S
          conv => lhs; unfold GState.extractFull
          rw [if_pos hd, hsplit]
          simp only [hlook]
        have hR' : ∀ key w, (R.set cur v).get? key = some w →
            ∃ n p, key = GState.extendedName n p ∧ look s n p = some w := by
          intro key w hg
          rw [Dict.get?_set] at hg
          split at hg
          · rename_i e; subst e; cases hg; exact ⟨n, p, hcur, hl⟩
          · exact hR key w hg
        obtain ⟨ih1, ih2⟩ := ih (R.set cur v) S hR'
        rw [hstep]
        constructor
        · intro hall
          obtain ⟨R', S', h1, h2, h3, h4⟩ := ih1 (fun q hq => hall q (List.mem_cons_of_mem _ hq))
          refine ⟨R', S', h1, ?_, fun hnd => h3 (Dict.nodup_set hnd _ _), ?_⟩
          · intro q; rw [h2]
            constructor
            · rintro (h | ⟨h, h'⟩)
              · exact Or.inl h
              · exact Or.inr ⟨List.mem_cons_of_mem _ h, h'⟩
            · rintro (h | ⟨h, h'⟩)
              · exact Or.inl h
              · rcases List.mem_cons.1 h with rfl | h
                · rw [hd] at h'; cases h'
                · exact Or.inr ⟨h, h'⟩
          · intro key w
            rw [h4, Dict.get?_set]
            constructor
            · rintro (h | ⟨h, h'⟩)
              · split at h
                · rename_i e; subst e; cases h
                  exact Or.inr ⟨by simp, n, p, hcur, hl⟩
                · exact Or.inl h
              · exact Or.inr ⟨List.mem_cons_of_mem _ h, h'⟩
            · rintro (h | ⟨h, n', p', h', hl'⟩)
              · by_cases hk : cur = key
                · left
                  rw [if_pos hk]
                  obtain ⟨n', p', e1, e2⟩ := hR key w h
                  rw [← hk, hcur] at e1
                  have hnp' := look_dotfree hs e2
                  obtain ⟨rfl, rfl⟩ := ext_inj hnp.1 hnp.2 hnp'.1 hnp'.2 e1
                  rw [← e2, hl]
                · exact Or.inl (by rw [if_neg hk]; exact h)
              · rcases List.mem_cons.1 h with rfl | h
                · left
                  rw [if_pos rfl]
                  have hnp' := look_dotfree hs hl'
                  obtain ⟨rfl, rfl⟩ := ext_inj hnp.1 hnp.2 hnp'.1 hnp'.2 (hcur.symm.trans h')
                  rw [← hl', hl]
                · exact Or.inr ⟨h, n', p', h', hl'⟩
        · rintro ⟨q, hq, hqd, hno⟩
          apply ih2
          rcases List.mem_cons.1 hq with rfl | hq
          · exact absurd ⟨n, p, v, hcur, hl⟩ hno
          · exact ⟨q, hq, hqd, hno⟩
      · have herr : ∃ e, s.extractFull (cur :: P) R S = .error e := by
          unfold GState.extractFull
          rw [if_pos hd]
          split
          · rename_i node param hsp
            obtain ⟨h1, h2, h3⟩ := splitDot_two hsp
            split
            · rename_i v hv
              exact absurd ⟨node, param, v, h1, hv⟩ hex
            · exact ⟨_, rfl⟩
          · exact ⟨_, rfl⟩
        constructor
        · intro hall; exact absurd (hall cur (by simp) hd) hex
        · intro _; exact herr
    · have hd' : hasDot cur = false := by simpa using hd
      obtain ⟨ih1, ih2⟩ := ih R (if cur ∈ S then S else S ++ [cur]) hR
      have hstep : s.extractFull (cur :: P) R S =
          s.extractFull P R (if cur ∈ S then S else S ++ [cur]) := by
        conv => lhs; unfold GState.extractFull
        rw [if_neg hd]
      rw [hstep]
      constructor
      · intro hall
        obtain ⟨R', S', h1, h2, h3, h4⟩ := ih1 (fun q hq => hall q (List.mem_cons_of_mem _ hq))
        refine ⟨R', S', h1, ?_, h3, ?_⟩
        · intro q; rw [h2]
          have : q ∈ (if cur ∈ S then S else S ++ [cur]) ↔ q ∈ S ∨ q = cur := by
            split
            · rename_i hm
              constructor
              · exact Or.inl
              · rintro (h | rfl)
                · exact h
                · exact hm
            · simp
          rw [this]
          constructor
          · rintro ((h | rfl) | ⟨h, h'⟩)
            · exact Or.inl h
            · exact Or.inr ⟨by simp, hd'⟩
            · exact Or.inr ⟨List.mem_cons_of_mem _ h, h'⟩
          · rintro (h | ⟨h, h'⟩)
            · exact Or.inl (Or.inl h)
            · rcases List.mem_cons.1 h with rfl | h
              · exact Or.inl (Or.inr rfl)
              · exact Or.inr ⟨h, h'⟩
        · intro key w
          rw [h4]
          constructor
          · rintro (h | ⟨h, h'⟩)
            · exact Or.inl h
            · exact Or.inr ⟨List.mem_cons_of_mem _ h, h'⟩
          · rintro (h | ⟨h, n', p', h', hl'⟩)
            · exact Or.inl h
            · rcases List.mem_cons.1 h with rfl | h
              · rw [h'] at hd'; unfold GState.extendedName at hd'; rw [hasDot_join] at hd'; cases hd'
              · exact Or.inr ⟨h, n', p', h', hl'⟩
      · rintro ⟨q, hq, hqd, hno⟩
        apply ih2
        rcases List.mem_cons.1 hq with rfl | hq
        · rw [hd'] at hqd; cases hqd
        · exact ⟨q, hq, hqd, hno⟩

theorem holders_nodup (s : GState α) (hs : Shape s) (p : Name) : ((holders (flat s) p).map (·.1)).Nodup := by
  have hn := flat_nodup s hs
  generalize flat s = F at hn ⊢
  induction F with
  | nil => simp [holders]
  | cons t F ih =>
    obtain ⟨a, b, c⟩ := t
    simp only [List.map_cons, List.nodup_cons] at hn
    have hc : holders ((a, b, c) :: F) p = if b = p then (a, c) :: holders F p else holders F p := by
      unfold holders
      rw [List.filterMap_cons]
      by_cases h : b = p <;> simp [h]
    rw [hc]
    split
    · rename_i hb; subst hb
      rw [List.map_cons, List.nodup_cons]
      refine ⟨?_, ih hn.2⟩
      intro hm
      obtain ⟨⟨a', v⟩, hm', rfl⟩ := List.mem_map.1 hm
      apply hn.1
      rw [mem_holders] at hm'
      exact List.mem_map.2 ⟨(a', b, v), hm', rfl⟩
    · exact ih hn.2

/-- C07. For every reachable state and every list of requested names, `extract_parameters`
succeeds exactly when each dotted name denotes a stored parameter and each short name is held by
some node. The result then contains exactly: every requested full name with its value; every
requested short name held by one node only, with that value; and for a requested short name held
by several nodes the full name of every holder, with its value (the short name itself is absent). -/
theorem C07_extract (s : GState α) (hs : Reachable s) (P : List Name) :
    ((∃ R, s.extractParameters P = .ok R) ↔
      ∀ q ∈ P, (∃ n p, q = n ++ '.' :: p ∧ (readParam s n p).isSome = true) ∨
        ('.' ∉ q ∧ ∃ n, (readParam s n q).isSome = true)) ∧
    ∀ R, s.extractParameters P = .ok R → ∀ key v, R.get? key = some v ↔
      (∃ n p, key = n ++ '.' :: p ∧ readParam s n p = some v ∧
        (key ∈ P ∨ (p ∈ P ∧ ∃ n', n' ≠ n ∧ (readParam s n' p).isSome = true))) ∨
      ('.' ∉ key ∧ key ∈ P ∧ ∃ n, readParam s n key = some v ∧
        ∀ n', (readParam s n' key).isSome = true → n' = n) := by
  have hsh := (reachable_wf hs).toShape
  have hdotmem : ∀ q : Name, hasDot q = false ↔ '.' ∉ q := by intro q; simp [hasDot]
  have hread : ∀ n p, readParam s n p = look s n p := read_eq_look s hsh
  simp only [hread]
  have hF : ∀ t ∈ flat s, hasDot t.1 = false ∧ hasDot t.2.1 = false := by
    rintro ⟨n, p, v⟩ hm
    exact look_dotfree hsh ((mem_flat_iff s hsh n p v).1 hm)
  obtain ⟨hfull, hbad⟩ := extractFull_spec s hsh P [] [] (by intro k v h; cases h)
  by_cases hall : ∀ q ∈ P, hasDot q = true → ∃ n p v, q = GState.extendedName n p ∧ look s n p = some v
  · obtain ⟨R', S', h1, h2, h3, h4⟩ := hfull hall
    have hnd' : R'.keys.Nodup := h3 (by simp)
    have hS' : ∀ q, q ∈ S' ↔ q ∈ P ∧ hasDot q = false := by intro q; rw [h2]; simp
    have hR0 : ∀ key v, R'.get? key = some v → ∃ n p, key = GState.extendedName n p ∧ (n, p, v) ∈ flat s := by
      intro key v h
      rcases (h4 key v).1 h with h | ⟨_, n, p, e, hl⟩
      · cases h
      · exact ⟨n, p, e, (mem_flat_iff s hsh n p v).2 hl⟩
    have inv0 : Inv R' S' [] (R', []) := by
      refine ⟨hnd', by simp [holders], ?_⟩
      intro key v
      simp [holders]
    have hinv := inv_fold R' S' (flat s) hF (flat_nodup s hsh) (fun q hq => ((hS' q).1 hq).2) hR0
      (flat s) [] (R', []) (by simp) inv0
    rw [← extractLoop_flat] at hinv
    have hhas : ∀ q ∈ S', ((GState.extractLoop S' (R', []) s.states).2.has q = true ↔
        ∃ n, (look s n q).isSome = true) := by
      intro q hq
      unfold Dict.has
      rw [hinv.first q hq]
      cases hh : holders (flat s) q with
      | nil =>
        simp only [List.head?_nil, Option.map_none, Option.isSome_none, Bool.false_eq_true, false_iff]
        rintro ⟨n, hn⟩
        obtain ⟨v, hv⟩ := Option.isSome_iff_exists.1 hn
        have := (mem_holders (flat s) q n v).2 ((mem_flat_iff s hsh n q v).2 hv)
        rw [hh] at this; simp at this
      | cons t rest =>
        simp only [List.head?_cons, Option.map_some, Option.isSome_some, true_iff]
        have : (t.1, t.2) ∈ holders (flat s) q := by rw [hh]; simp
        rw [mem_holders, mem_flat_iff s hsh] at this
        exact ⟨t.1, by rw [this]; rfl⟩
    have hval : s.extractParameters P =
        if S'.length = 0 then .ok R' else
          if S'.all fun p => (GState.extractLoop S' (R', []) s.states).2.has p then
            .ok (GState.extractLoop S' (R', []) s.states).1 else .error .keyError := by
      unfold GState.extractParameters
      simp only [h1, bind, Except.bind]
      rfl
    have hloop0 : S'.length = 0 → GState.extractLoop S' (R', []) s.states = (R', []) := by
      intro h0
      have : S' = [] := List.length_eq_zero_iff.1 h0
      rw [this, extractLoop_flat]
      generalize flat s = F
      induction F with
      | nil => rfl
      | cons t F ih => rw [List.foldl_cons]; simpa [GState.extractStep] using ih
    have hval2 : s.extractParameters P =
          if S'.all fun p => (GState.extractLoop S' (R', []) s.states).2.has p then
            .ok (GState.extractLoop S' (R', []) s.states).1 else .error .keyError := by
      rw [hval]
      by_cases h0 : S'.length = 0
      · rw [if_pos h0, hloop0 h0]
        have : S' = [] := List.length_eq_zero_iff.1 h0
        rw [this]; rfl
      · rw [if_neg h0]
    constructor
    · rw [hval2]
      constructor
      · rintro ⟨R, hR⟩
        split at hR
        · rename_i hA
          intro q hq
          by_cases hd : hasDot q = true
          · obtain ⟨n, p, v, e, hl⟩ := hall q hq hd
            exact Or.inl ⟨n, p, e, by rw [hl]; rfl⟩
          · have hd' : hasDot q = false := by simpa using hd
            right
            refine ⟨(hdotmem q).1 hd', ?_⟩
            have hqS := (hS' q).2 ⟨hq, hd'⟩
            exact (hhas q hqS).1 (List.all_eq_true.1 hA q hqS)
        · cases hR
      · intro h
        have hA : (S'.all fun p => (GState.extractLoop S' (R', []) s.states).2.has p) = true := by
          rw [List.all_eq_true]
          intro q hq
          rw [hhas q hq]
          obtain ⟨hqP, hqd⟩ := (hS' q).1 hq
          rcases h q hqP with ⟨n, p, e, _⟩ | ⟨_, h⟩
          · rw [e, hasDot_join] at hqd; cases hqd
          · exact h
        rw [if_pos hA]; exact ⟨_, rfl⟩
    · intro R hR key v
      rw [hval2] at hR
      split at hR
      · cases hR
        rw [hinv.res key v, h4]
        constructor
        · rintro ((h | ⟨h, n, p, e, hl⟩) | ⟨hk, n, hh⟩ | ⟨n, p, e, hp, hm, hlen⟩)
          · cases h
          · exact Or.inl ⟨n, p, e, hl, Or.inl h⟩
          · right
            obtain ⟨hkP, hkd⟩ := (hS' key).1 hk
            refine ⟨(hdotmem key).1 hkd, hkP, n, ?_, ?_⟩
            · rw [← mem_flat_iff s hsh, ← mem_holders, hh]; simp
            · intro n' hn'
              obtain ⟨w, hw⟩ := Option.isSome_iff_exists.1 hn'
              rw [← mem_flat_iff s hsh, ← mem_holders, hh] at hw
              simp at hw; exact hw.1
          · left
            refine ⟨n, p, e, ?_, Or.inr ⟨((hS' p).1 hp).1, ?_⟩⟩
            · rw [← mem_flat_iff s hsh, ← mem_holders]; exact hm
            · have hnd := holders_nodup s hsh p
              cases hh : holders (flat s) p with
              | nil => rw [hh] at hlen; simp at hlen
              | cons t1 r =>
                cases r with
                | nil => rw [hh] at hlen; simp at hlen
                | cons t2 r =>
                  rw [hh] at hnd
                  simp only [List.map_cons, List.nodup_cons, List.mem_cons, not_or] at hnd
                  have m1 : (t1.1, t1.2) ∈ holders (flat s) p := by rw [hh]; simp
                  have m2 : (t2.1, t2.2) ∈ holders (flat s) p := by rw [hh]; simp
                  rw [mem_holders, mem_flat_iff s hsh] at m1 m2
                  by_cases hn : t1.1 = n
                  · exact ⟨t2.1, by rw [← hn]; exact fun x => hnd.1.1 x.symm, by rw [m2]; rfl⟩
                  · exact ⟨t1.1, hn, by rw [m1]; rfl⟩
        · rintro (⟨n, p, e, hl, (h | ⟨hp, n', hne, hn'⟩)⟩ | ⟨hkd, hkP, n, hl, huniq⟩)
          · exact Or.inl (Or.inr ⟨h, n, p, e, hl⟩)
          · right; right
            have hpd := (look_dotfree hsh hl).2
            refine ⟨n, p, e, (hS' p).2 ⟨hp, hpd⟩, ?_, ?_⟩
            · rw [mem_holders, mem_flat_iff s hsh]; exact hl
            · obtain ⟨w, hw⟩ := Option.isSome_iff_exists.1 hn'
              rw [← mem_flat_iff s hsh, ← mem_holders] at hl hw
              cases hh : holders (flat s) p with
              | nil => rw [hh] at hl; simp at hl
              | cons t1 r =>
                cases r with
                | nil =>
                  rw [hh] at hl hw
                  simp only [List.mem_singleton] at hl hw
                  rw [← hw] at hl
                  exact absurd (congrArg Prod.fst hl).symm hne
                | cons t2 r => simp
          · right; left
            refine ⟨(hS' key).2 ⟨hkP, (hdotmem key).2 hkd⟩, n, ?_⟩
            have hnd := holders_nodup s hsh key
            have hm : (n, v) ∈ holders (flat s) key := by
              rw [mem_holders, mem_flat_iff s hsh]; exact hl
            have hu : ∀ t ∈ holders (flat s) key, t.1 = n := by
              intro t ht
              have : (t.1, t.2) ∈ holders (flat s) key := ht
              rw [mem_holders, mem_flat_iff s hsh] at this
              exact huniq t.1 (by rw [this]; rfl)
            cases hh : holders (flat s) key with
            | nil => rw [hh] at hm; simp at hm
            | cons t1 r =>
              rw [hh] at hm hnd hu
              cases r with
              | nil => simp at hm; rw [hm]
              | cons t2 r =>
                simp only [List.map_cons, List.nodup_cons, List.mem_cons, not_or] at hnd
                exact absurd ((hu t1 (by simp)).trans (hu t2 (by simp)).symm) hnd.1.1
      · cases hR
  · have hex : ∃ q ∈ P, hasDot q = true ∧ ¬ ∃ n p v, q = GState.extendedName n p ∧ look s n p = some v := by
      simp only [Classical.not_forall] at hall
      obtain ⟨q, hq, hd, h⟩ := hall
      exact ⟨q, hq, hd, h⟩
    obtain ⟨e, he⟩ := hbad hex
    have herr : s.extractParameters P = .error e := by
      unfold GState.extractParameters
      simp only [he, bind, Except.bind]
    constructor
    · rw [herr]
      constructor
      · rintro ⟨R, h⟩; cases h
      · intro h
        obtain ⟨q, hq, hd, hno⟩ := hex
        rcases h q hq with ⟨n, p, e1, e2⟩ | ⟨e1, _⟩
        · obtain ⟨v, hv⟩ := Option.isSome_iff_exists.1 e2
          exact absurd ⟨n, p, v, e1, hv⟩ hno
        · rw [(hdotmem q).2 e1] at hd; cases hd
    · intro R hR; rw [herr] at hR; cases hR

/-- Non-vacuity of C07: a reachable state where one short name is ambiguous and one is not. -/
example : ∃ s : GState Nat, Reachable s ∧ ∃ R, s.extractParameters [['x'], ['y'], ['a', '.', 'z']] = .ok R ∧
    R.keys = [['a', '.', 'z'], ['a', '.', 'x'], ['b', '.', 'x'], ['y']] := by
  refine ⟨_, ⟨1, _, [Op.set ['a'] ['x'] (.scalar 1) false, Op.set ['b'] ['x'] (.scalar 2) false,
    Op.set ['b'] ['y'] (.scalar 3) false, Op.set ['a'] ['z'] (.scalar 4) false], rfl, rfl⟩, _, rfl, rfl⟩

end LCL.GraphProps
