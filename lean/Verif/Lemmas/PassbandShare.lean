import Verif.Spec.PassbandShare
import Verif.Props.PassbandGroup2

/-!
# Lemmas for C130: groups by reference
-/

namespace LCL.PassbandShareLemmas
open LCL LCL.PassbandShare LCL.PassbandGroupProps
variable {K : Type} [Field K] [LinearOrder K]

/-- Every reference is to an existing passband. -/
def Valid (bands : List (Passband K)) (d : Dict Name Nat) : Prop := ∀ n r, (n, r) ∈ d → ∃ pb, bands[r]? = some pb

omit [Field K] [LinearOrder K] in
theorem valid_tail {bands : List (Passband K)} {p : Name × Nat} {d : Dict Name Nat} (h : Valid bands (p :: d)) : Valid bands d :=
  fun n r hm => h n r (List.mem_cons_of_mem _ hm)

omit [Field K] [LinearOrder K] in
theorem deref_cons {bands : List (Passband K)} {n : Name} {r : Nat} {d : Dict Name Nat} {pb : Passband K}
    (h : bands[r]? = some pb) : deref bands ((n, r) :: d) = (n, pb) :: deref bands d := by
  simp only [deref, h]

omit [Field K] [LinearOrder K] in
theorem deref_keys {bands : List (Passband K)} : ∀ {d : Dict Name Nat}, Valid bands d → (deref bands d).keys = d.keys
  | [], _ => rfl
  | (n, r) :: d, h => by
    obtain ⟨pb, hp⟩ := h n r (by simp)
    rw [deref_cons hp]
    simp only [Dict.keys, List.map_cons]
    have := deref_keys (valid_tail h)
    simp only [Dict.keys] at this
    rw [this]

omit [Field K] [LinearOrder K] in
theorem deref_mem {bands : List (Passband K)} {n : Name} {pb : Passband K} : ∀ {d : Dict Name Nat}, Valid bands d →
    ((n, pb) ∈ deref bands d ↔ ∃ r, (n, r) ∈ d ∧ bands[r]? = some pb)
  | [], _ => by simp [deref]
  | (m, r) :: d, h => by
    obtain ⟨q, hq⟩ := h m r (by simp)
    rw [deref_cons hq, List.mem_cons, deref_mem (valid_tail h)]
    constructor
    · rintro (e | ⟨r', h1, h2⟩)
      · cases e; exact ⟨r, by simp, hq⟩
      · exact ⟨r', List.mem_cons_of_mem _ h1, h2⟩
    · rintro ⟨r', h1, h2⟩
      rcases List.mem_cons.1 h1 with e | h1
      · cases e
        rw [hq] at h2; cases h2
        exact Or.inl rfl
      · exact Or.inr ⟨r', h1, h2⟩

omit [Field K] [LinearOrder K] in
theorem deref_get {bands : List (Passband K)} {d : Dict Name Nat} (h : Valid bands d) (n : Name) :
    (deref bands d).get? n = (d.get? n).bind fun r => bands[r]? := by
  induction d with
  | nil => rfl
  | cons p d ih =>
    obtain ⟨m, r⟩ := p
    obtain ⟨q, hq⟩ := h m r (by simp)
    rw [deref_cons hq, Dict.get?_cons, Dict.get?_cons]
    by_cases hm : m = n
    · rw [if_pos hm, if_pos hm, Option.bind_some, hq]
    · rw [if_neg hm, if_neg hm, ih (valid_tail h)]

omit [Field K] [LinearOrder K] in
theorem deref_set {bands : List (Passband K)} {d : Dict Name Nat} (h : Valid bands d) {n : Name} {r : Nat} {pb : Passband K}
    (hr : bands[r]? = some pb) : deref bands (d.set n r) = (deref bands d).set n pb := by
  induction d with
  | nil => simp only [Dict.set, deref, hr]
  | cons p d ih =>
    obtain ⟨m, q⟩ := p
    obtain ⟨qb, hq⟩ := h m q (by simp)
    rw [deref_cons hq]
    unfold Dict.set
    by_cases hm : m = n
    · rw [if_pos hm, if_pos hm, deref_cons hr]
    · rw [if_neg hm, if_neg hm, deref_cons hq, ih (valid_tail h)]

omit [Field K] [LinearOrder K] in
theorem deref_erase {bands : List (Passband K)} {d : Dict Name Nat} (h : Valid bands d) (n : Name) :
    deref bands (d.erase n) = (deref bands d).erase n := by
  induction d with
  | nil => rfl
  | cons p d ih =>
    obtain ⟨m, q⟩ := p
    obtain ⟨qb, hq⟩ := h m q (by simp)
    rw [deref_cons hq]
    unfold Dict.erase
    by_cases hm : m = n
    · rw [if_pos hm, if_pos hm]
    · rw [if_neg hm, if_neg hm, deref_cons hq, ih (valid_tail h)]

omit [Field K] [LinearOrder K] in
theorem mem_set {d : Dict Name Nat} {k n : Name} {v w : Nat} (h : (n, w) ∈ d.set k v) : (n = k ∧ w = v) ∨ (n, w) ∈ d := by
  induction d with
  | nil => simp [Dict.set] at h; exact Or.inl h
  | cons p d ih =>
    obtain ⟨m, q⟩ := p
    unfold Dict.set at h
    split at h
    · rename_i hm
      rcases List.mem_cons.1 h with e | h
      · cases e; exact Or.inl ⟨by first | exact hm | rfl, rfl⟩
      · exact Or.inr (List.mem_cons_of_mem _ h)
    · rcases List.mem_cons.1 h with e | h
      · cases e; exact Or.inr (by simp)
      · rcases ih h with h | h
        · exact Or.inl h
        · exact Or.inr (List.mem_cons_of_mem _ h)

theorem mem_erase {d : Dict Name Nat} {k : Name} {p : Name × Nat} (h : p ∈ d.erase k) : p ∈ d := by
  induction d with
  | nil => simp [Dict.erase] at h
  | cons q d ih =>
    obtain ⟨a, b⟩ := q
    unfold Dict.erase at h
    split at h
    · exact List.mem_cons_of_mem _ h
    · rcases List.mem_cons.1 h with rfl | h
      · simp
      · exact List.mem_cons_of_mem _ (ih h)

/-- Members stored under their own names. -/
def Named (bands : List (Passband K)) (d : Dict Name Nat) : Prop :=
  d.keys.Nodup ∧ ∀ n r, (n, r) ∈ d → ∃ pb, bands[r]? = some pb ∧ pb.fullName = n

omit [Field K] [LinearOrder K] in
theorem Named.valid {bands : List (Passband K)} {d : Dict Name Nat} (h : Named bands d) : Valid bands d := fun n r hm => by
  obtain ⟨pb, h1, _⟩ := h.2 n r hm
  exact ⟨pb, h1⟩

omit [Field K] [LinearOrder K] in
theorem named_set {bands : List (Passband K)} {d : Dict Name Nat} (h : Named bands d) {r : Nat} {pb : Passband K}
    (hr : bands[r]? = some pb) : Named bands (d.set pb.fullName r) := by
  refine ⟨Dict.nodup_set h.1 _ _, ?_⟩
  intro n r' hm
  rcases mem_set hm with ⟨rfl, rfl⟩ | hm
  · exact ⟨pb, hr, rfl⟩
  · exact h.2 n r' hm

/-- The references of a group are distinct. -/
theorem named_refs {bands : List (Passband K)} {d : Dict Name Nat} (h : Named bands d) : (d.map (·.2)).Nodup := by
  have h1 : d.Pairwise fun p q => p.1 ≠ q.1 := by
    have := h.1
    unfold Dict.keys List.Nodup at this
    rwa [List.pairwise_map] at this
  unfold List.Nodup
  rw [List.pairwise_map]
  refine h1.imp_of_mem ?_
  intro a b ha hb hab he
  obtain ⟨pa, e1, e2⟩ := h.2 a.1 a.2 ha
  obtain ⟨qb, e3, e4⟩ := h.2 b.1 b.2 hb
  rw [he] at e1
  rw [e1] at e3
  cases e3
  exact hab (e2.symm.trans e4)

/-! ## Construction -/

theorem store_spec (bands : List (Passband K)) (refs : List Nat) :
    Named bands (store bands refs) ∧
    deref bands (store bands refs) = PassbandGroup.store (refs.filterMap fun r => bands[r]?) := by
  unfold store PassbandGroup.store
  have key : ∀ (refs : List Nat) (d : Dict Name Nat) (D : Dict Name (Passband K)), Named bands d → deref bands d = D →
      Named bands (refs.foldl (fun (d : Dict Name Nat) r => match bands[r]? with
        | some pb => Dict.set d pb.fullName r
        | none => d) d) ∧
      deref bands (refs.foldl (fun (d : Dict Name Nat) r => match bands[r]? with
        | some pb => Dict.set d pb.fullName r
        | none => d) d) =
      (refs.filterMap fun r => bands[r]?).foldl (fun (d : Dict Name (Passband K)) pb => Dict.set d pb.fullName pb) D := by
    intro refs
    induction refs with
    | nil => intro d D h e; exact ⟨h, e⟩
    | cons r refs ih =>
      intro d D h e
      cases hr : bands[r]? with
      | none =>
        have := ih d D h e
        simp only [List.foldl_cons, hr, List.filterMap_cons]
        exact this
      | some pb =>
        have := ih (d.set pb.fullName r) (D.set pb.fullName pb) (named_set h hr) (by rw [deref_set h.valid hr, e])
        simp only [List.foldl_cons, hr, List.filterMap_cons]
        exact this
  exact key refs [] [] ⟨by simp, by simp⟩ rfl

theorem prune_spec' {bands : List (Passband K)} {all : Dict Name Nat} (h : Named bands all) (filters : Option (List Name)) :
    Named bands (prune bands all filters).1 ∧
    deref bands (prune bands all filters).1 = (PassbandGroup.prune (deref bands all) filters).1 ∧
    (prune bands all filters).2 = (PassbandGroup.prune (deref bands all) filters).2 := by
  cases filters with
  | none => exact ⟨h, rfl, rfl⟩
  | some fs =>
    unfold prune PassbandGroup.prune
    dsimp only
    have key : ∀ (ps : Dict Name Nat) (st : Dict Name Nat × List Name) (ST : Dict Name (Passband K) × List Name),
        Valid bands ps → Named bands st.1 → deref bands st.1 = ST.1 → st.2 = ST.2 →
        Named bands (ps.foldl (pruneStep bands fs) st).1 ∧
        deref bands (ps.foldl (pruneStep bands fs) st).1 = ((deref bands ps).foldl (PassbandGroup.pruneStep fs) ST).1 ∧
        (ps.foldl (pruneStep bands fs) st).2 = ((deref bands ps).foldl (PassbandGroup.pruneStep fs) ST).2 := by
      intro ps
      induction ps with
      | nil => intro st ST _ h1 h2 h3; exact ⟨h1, h2, h3⟩
      | cons p ps ih =>
        obtain ⟨n, r⟩ := p
        intro st ST hv h1 h2 h3
        obtain ⟨pb, hp⟩ := hv n r (by simp)
        rw [deref_cons hp, List.foldl_cons, List.foldl_cons]
        have hstep : pruneStep bands fs st (n, r) = (if n ∈ fs then (st.1, st.2.filter (· ≠ n))
            else if pb.filterName ∈ fs then (st.1, st.2.filter (· ≠ pb.filterName)) else (st.1.erase n, st.2)) := by
          simp only [pruneStep, hp]
        have hSTEP : PassbandGroup.pruneStep fs ST (n, pb) = (if n ∈ fs then (ST.1, ST.2.filter (· ≠ n))
            else if pb.filterName ∈ fs then (ST.1, ST.2.filter (· ≠ pb.filterName)) else (ST.1.erase n, ST.2)) := rfl
        rw [hstep, hSTEP]
        by_cases c1 : n ∈ fs
        · rw [if_pos c1, if_pos c1]
          exact ih _ _ (valid_tail hv) h1 h2 (by rw [h3])
        · rw [if_neg c1, if_neg c1]
          by_cases c2 : pb.filterName ∈ fs
          · rw [if_pos c2, if_pos c2]
            exact ih _ _ (valid_tail hv) h1 h2 (by rw [h3])
          · rw [if_neg c2, if_neg c2]
            refine ih _ _ (valid_tail hv) ⟨Dict.nodup_erase h1.1 _, fun m s hm => h1.2 m s (mem_erase hm)⟩ ?_ h3
            rw [deref_erase h1.valid, h2]
    exact key all (all, fs) (deref bands all, fs) h.valid h rfl rfl

/-! ## Reprocessing -/

omit [Field K] [LinearOrder K] in
theorem deref_other {bands : List (Passband K)} {r : Nat} {pb : Passband K} : ∀ {d : Dict Name Nat},
    (∀ n, (n, r) ∉ d) → deref (bands.set r pb) d = deref bands d
  | [], _ => rfl
  | (m, q) :: d, h => by
    have hne : r ≠ q := by
      rintro rfl
      exact h m (by simp)
    have hq : (bands.set r pb)[q]? = bands[q]? := by rw [List.getElem?_set_ne hne]
    simp only [deref, hq]
    rw [deref_other fun n hm => h n (List.mem_cons_of_mem _ hm)]

variable [FloorRing K]

/-- Passbands that are not members are left alone; members keep their names. -/
theorem reprocessRefs_frame {delta q : Option K} : ∀ {d : Dict Name Nat} {bands bands' : List (Passband K)} {e : Option Err},
    reprocessRefs delta q d bands = (bands', e) →
    bands'.length = bands.length ∧ (∀ r, (∀ n, (n, r) ∉ d) → bands'[r]? = bands[r]?)
  | [], bands, bands', e, h => by
    cases h; exact ⟨rfl, fun _ _ => rfl⟩
  | (m, s) :: d, bands, bands', e, h => by
    cases hb : bands[s]? with
    | none =>
      simp only [reprocessRefs, hb] at h
      cases h; exact ⟨rfl, fun _ _ => rfl⟩
    | some pb =>
      simp only [reprocessRefs, hb] at h
      cases hp : pb.reprocess delta q with
      | mk pb' e' =>
        rw [hp] at h
        have hset : ∀ r, (∀ n, (n, r) ∉ (m, s) :: d) → (bands.set s pb')[r]? = bands[r]? := by
          intro r hr
          rw [List.getElem?_set_ne]
          rintro rfl
          exact hr m (by simp)
        cases e' with
        | some e' =>
          dsimp only at h
          cases h
          exact ⟨by simp, hset⟩
        | none =>
          dsimp only at h
          obtain ⟨h1, h2⟩ := reprocessRefs_frame h
          refine ⟨by rw [h1]; simp, fun r hr => ?_⟩
          rw [h2 r fun n hm => hr n (List.mem_cons_of_mem _ hm), hset r hr]

/-- Reprocessing the members in place acts on what the group shows as reprocessing its own copies. -/
theorem reprocessRefs_spec {delta q : Option K} : ∀ {d : Dict Name Nat} {bands : List (Passband K)},
    Valid bands d → (d.map (·.2)).Nodup →
    PassbandGroup.reprocessAll delta q (deref bands d) =
      (deref (reprocessRefs delta q d bands).1 d, (reprocessRefs delta q d bands).2)
  | [], bands, _, _ => rfl
  | (m, s) :: d, bands, hv, hn => by
    obtain ⟨pb, hb⟩ := hv m s (by simp)
    have hs : ∀ n, (n, s) ∉ d := by
      intro n hm
      rw [List.map_cons, List.nodup_cons] at hn
      exact hn.1 (List.mem_map.2 ⟨(n, s), hm, rfl⟩)
    have hlt : s < bands.length := by
      rcases Nat.lt_or_ge s bands.length with h | h
      · exact h
      · rw [List.getElem?_eq_none h] at hb; cases hb
    rw [deref_cons hb]
    cases hp : pb.reprocess delta q with
    | mk pb' e' =>
      have hself : (bands.set s pb')[s]? = some pb' := by
        rw [List.getElem?_set_self hlt]
      have hrest : deref (bands.set s pb') d = deref bands d := deref_other hs
      cases e' with
      | some e' =>
        simp only [PassbandGroup.reprocessAll, reprocessRefs, hb, hp]
        rw [deref_cons hself, hrest]
      | none =>
        simp only [PassbandGroup.reprocessAll, reprocessRefs, hb, hp]
        have hv' : Valid (bands.set s pb') d := by
          intro n r hm
          obtain ⟨w, hw⟩ := valid_tail hv n r hm
          have hne : s ≠ r := by rintro rfl; exact hs n hm
          exact ⟨w, by rw [List.getElem?_set_ne hne]; exact hw⟩
        have ih := reprocessRefs_spec (delta := delta) (q := q) hv' (by
          rw [List.map_cons, List.nodup_cons] at hn; exact hn.2)
        rw [hrest] at ih
        rw [ih]
        cases hR : reprocessRefs delta q d (bands.set s pb') with
        | mk bands' e =>
          have := (reprocessRefs_frame hR).2 s hs
          rw [hself] at this
          dsimp only
          rw [deref_cons this]

/-- A property of passbands kept by reprocessing is kept by reprocessing members. -/
theorem reprocessRefs_all {P : Passband K → Passband K → Prop} (hrefl : ∀ a, P a a) (htrans : ∀ a b c, P a b → P b c → P a c)
    {delta q : Option K} (hP : ∀ a, P a (a.reprocess delta q).1) :
    ∀ {d : Dict Name Nat} {bands : List (Passband K)} {r : Nat} {pb : Passband K}, bands[r]? = some pb →
      ∃ pb', (reprocessRefs delta q d bands).1[r]? = some pb' ∧ P pb pb'
  | [], bands, r, pb, h => ⟨pb, h, hrefl pb⟩
  | (m, s) :: d, bands, r, pb, h => by
    cases hb : bands[s]? with
    | none => simp only [reprocessRefs, hb]; exact ⟨pb, h, hrefl pb⟩
    | some sb =>
      have hset : ∃ w, (bands.set s (sb.reprocess delta q).1)[r]? = some w ∧ P pb w := by
        by_cases hs : s = r
        · subst hs
          have hlt : s < bands.length := by
            rcases Nat.lt_or_ge s bands.length with h' | h'
            · exact h'
            · rw [List.getElem?_eq_none h'] at hb; cases hb
          rw [h] at hb; cases hb
          exact ⟨_, by rw [List.getElem?_set_self hlt], hP pb⟩
        · exact ⟨pb, by rw [List.getElem?_set_ne hs]; exact h, hrefl pb⟩
      cases hp : sb.reprocess delta q with
      | mk pb' e' =>
        rw [hp] at hset
        cases e' with
        | some e' => simp only [reprocessRefs, hb, hp]; exact hset
        | none =>
          simp only [reprocessRefs, hb, hp]
          obtain ⟨w, h1, h2⟩ := hset
          obtain ⟨w', h3, h4⟩ := reprocessRefs_all hrefl htrans hP (d := d) h1
          exact ⟨w', h3, htrans _ _ _ h2 h4⟩

end LCL.PassbandShareLemmas
