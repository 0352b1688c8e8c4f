import Verif.Spec.ObsTable
import Verif.Lemmas.Physical
import Mathlib.Tactic.Linarith
import Mathlib.Tactic.Ring
import Mathlib.Tactic.Positivity

namespace LCL.ObsLemmas
open LCL LCL.ObsSpec LCL.ObsTable Real

/-! ### Geometry -/

theorem dot_eq (ra dec ra' dec' : ℝ) :
    let p := toCart ra dec
    let q := toCart ra' dec'
    p.1 * q.1 + p.2.1 * q.2.1 + p.2.2 * q.2.2 =
      sin (dec * (π / 180)) * sin (dec' * (π / 180)) +
        cos (dec * (π / 180)) * cos (dec' * (π / 180)) * cos (ra * (π / 180) - ra' * (π / 180)) := by
  simp only [toCart, cos_sub]
  ring

theorem toCart_unit (ra dec : ℝ) :
    (toCart ra dec).1 ^ 2 + (toCart ra dec).2.1 ^ 2 + (toCart ra dec).2.2 ^ 2 = 1 := by
  simp only [toCart]
  have h1 := sin_sq_add_cos_sq (ra * (π / 180))
  have h2 := sin_sq_add_cos_sq (dec * (π / 180))
  calc _ = cos (dec * (π / 180)) ^ 2 * (sin (ra * (π / 180)) ^ 2 + cos (ra * (π / 180)) ^ 2) + sin (dec * (π / 180)) ^ 2 := by ring
    _ = 1 := by rw [h1]; linarith

theorem arccos_le_iff {x r : ℝ} (h1 : -1 ≤ x) (h2 : x ≤ 1) (hr : 0 ≤ r) (hr' : r ≤ π) : arccos x ≤ r ↔ cos r ≤ x := by
  constructor
  · intro h
    have := cos_le_cos_of_nonneg_of_le_pi (arccos_nonneg x) hr' h
    rwa [cos_arccos h1 h2] at this
  · intro h
    have := arccos_le_arccos h
    rwa [arccos_cos hr hr'] at this

/-- The Cartesian search finds exactly the points at great-circle separation at most `r` degrees. -/
theorem chord_iff (ra dec ra' dec' r : ℝ) (h0 : 0 ≤ r) (h180 : r ≤ 180) :
    dist3 (toCart ra' dec') (toCart ra dec) ≤ chordRadius r ↔ sep ra dec ra' dec' ≤ r * (π / 180) := by
  have hd := dot_eq ra dec ra' dec'
  have hu := toCart_unit ra dec
  have hu' := toCart_unit ra' dec'
  simp only at hd
  unfold sep dist3 chordRadius
  generalize toCart ra dec = p at *
  generalize toCart ra' dec' = q at *
  rw [← hd]
  have hpi := pi_pos
  have hr0 : 0 ≤ r * (π / 180) := by positivity
  have hrp : r * (π / 180) ≤ π := by
    calc r * (π / 180) ≤ 180 * (π / 180) := by gcongr
      _ = π := by ring
  generalize r * (π / 180) = ρ at *
  have hs : 0 ≤ sin (ρ / 2) := sin_nonneg_of_nonneg_of_le_pi (by linarith) (by linarith)
  have hc : cos ρ = 1 - 2 * sin (ρ / 2) ^ 2 := by
    have := cos_two_mul (ρ / 2)
    have h2 := sin_sq_add_cos_sq (ρ / 2)
    rw [show 2 * (ρ / 2) = ρ by ring] at this
    linarith
  have ha : -1 ≤ p.1 * q.1 + p.2.1 * q.2.1 + p.2.2 * q.2.2 := by
    nlinarith [sq_nonneg (p.1 + q.1), sq_nonneg (p.2.1 + q.2.1), sq_nonneg (p.2.2 + q.2.2)]
  have hb : p.1 * q.1 + p.2.1 * q.2.1 + p.2.2 * q.2.2 ≤ 1 := by
    nlinarith [sq_nonneg (p.1 - q.1), sq_nonneg (p.2.1 - q.2.1), sq_nonneg (p.2.2 - q.2.2)]
  rw [arccos_le_iff ha hb hr0 hrp, sqrt_le_left (by linarith), hc]
  constructor
  · intro h; nlinarith
  · intro h; nlinarith

/-! ### Lists -/

theorem mapM_num_ok {c : List Cell} {l : List ℝ} : c.mapM Cell.num? = .ok l ↔ c = l.map Cell.num := by
  induction c generalizing l with
  | nil =>
    simp only [List.mapM_nil]
    constructor
    · intro h
      have : l = [] := by cases h; rfl
      simp [this]
    · intro h
      have : l = [] := by cases l with
        | nil => rfl
        | cons _ _ => simp at h
      subst this; rfl
  | cons x c ih =>
    rw [List.mapM_cons]
    cases x with
    | str s =>
      constructor
      · intro h; cases h
      · intro h; cases l <;> simp at h
    | num x =>
      cases h : c.mapM Cell.num? with
      | error e =>
        constructor
        · intro h'; cases h'
        · intro h'
          cases l with
          | nil => simp at h'
          | cons y l =>
            simp only [List.map_cons, List.cons.injEq] at h'
            rw [ih.2 h'.2] at h; cases h
      | ok l' =>
        have hc := ih.1 h
        constructor
        · intro h'
          have : l = x :: l' := by cases h'; rfl
          subst this
          simp [hc]
        · intro h'
          cases l with
          | nil => simp at h'
          | cons y l =>
            simp only [List.map_cons, List.cons.injEq, Cell.num.injEq] at h'
            obtain ⟨rfl, h'⟩ := h'
            have := ih.2 h'
            rw [h] at this
            cases this
            rfl

theorem numCol_ok {cols : Dict Name (List Cell)} {name : Name} {l : List ℝ} :
    numCol cols name = .ok l ↔ cols.get? name = some (l.map Cell.num) := by
  unfold numCol
  cases h : cols.get? name with
  | none => simp
  | some c => simp only [Option.some.injEq]; exact mapM_num_ok

theorem mapM_id_some {β : Type} {c : List (Option β)} {l : List β} : c.mapM id = some l ↔ c = l.map some := by
  induction c generalizing l with
  | nil =>
    simp only [List.mapM_nil]
    constructor
    · intro h
      have : l = [] := by cases h; rfl
      simp [this]
    · intro h
      have : l = [] := by cases l with
        | nil => rfl
        | cons _ _ => simp at h
      subst this; rfl
  | cons x c ih =>
    rw [List.mapM_cons]
    cases x with
    | none =>
      constructor
      · intro h; cases h
      · intro h; cases l <;> simp at h
    | some x =>
      cases h : c.mapM id with
      | none =>
        constructor
        · intro h'; cases h'
        · intro h'
          cases l with
          | nil => simp at h'
          | cons y l =>
            simp only [List.map_cons, List.cons.injEq] at h'
            rw [ih.2 h'.2] at h; cases h
      | some l' =>
        have hc := ih.1 h
        constructor
        · intro h'
          have : l = x :: l' := by cases h'; rfl
          subst this
          simp [hc]
        · intro h'
          cases l with
          | nil => simp at h'
          | cons y l =>
            simp only [List.map_cons, List.cons.injEq, Option.some.injEq] at h'
            obtain ⟨rfl, h'⟩ := h'
            have := ih.2 h'
            rw [h] at this
            cases this
            rfl

theorem keep_eq_gather {β : Type} (m : List Bool) (l : List β) : gather m l = keep m l := by
  induction m generalizing l with
  | nil => simp [keep]
  | cons b m ih =>
    cases l with
    | nil => cases b <;> simp [keep]
    | cons x l => cases b <;> simp [keep, ih]

theorem keep_length {β : Type} (m : List Bool) (l : List β) (h : m.length = l.length) :
    (keep m l).length = m.count true := by
  rw [← keep_eq_gather]; exact PhysLemmas.gather_length m l h

theorem keep_map {β γ : Type} (f : β → γ) (m : List Bool) (l : List β) : keep m (l.map f) = (keep m l).map f := by
  induction m generalizing l with
  | nil => simp [keep]
  | cons b m ih =>
    cases l with
    | nil => cases b <;> simp [keep]
    | cons x l => cases b <;> simp [keep, ih]

theorem keep_zipWith {β γ δ : Type} (f : β → γ → δ) (m : List Bool) (l : List β) (l' : List γ) (h : l.length = l'.length) :
    keep m (List.zipWith f l l') = List.zipWith f (keep m l) (keep m l') := by
  induction m generalizing l l' with
  | nil => simp [keep]
  | cons b m ih =>
    cases l with
    | nil => cases b <;> simp [keep]
    | cons x l =>
      cases l' with
      | nil => simp at h
      | cons y l' => cases b <;> simp [keep, ih l l' (by simpa using h)]

theorem get?_mapVals {ν μ : Type} (f : ν → μ) (d : Dict Name ν) (k : Name) :
    Dict.get? (d.map fun q => (q.1, f q.2)) k = (Dict.get? d k).map f := by
  induction d with
  | nil => rfl
  | cons q d ih =>
    obtain ⟨a, b⟩ := q
    simp only [List.map_cons, Dict.get?_cons]
    split
    · rfl
    · exact ih

/-! ### The kd-tree is always that of the pointings -/

/-- What the kd-tree must hold. -/
def FreshTree (t : ObsTable) : Prop :=
  ∃ ras decs : List ℝ, t.cols.get? "ra".toList = some (ras.map Cell.num) ∧ t.cols.get? "dec".toList = some (decs.map Cell.num) ∧
    ras.length = t.len ∧ decs.length = t.len ∧ t.tree = List.zipWith toCart ras decs

theorem buildTree_ok {cols : Dict Name (List Cell)} {tree : List (ℝ × ℝ × ℝ)} (h : buildTree cols = .ok tree) :
    ∃ ras decs : List ℝ, cols.get? "ra".toList = some (ras.map Cell.num) ∧ cols.get? "dec".toList = some (decs.map Cell.num) ∧
      tree = List.zipWith toCart ras decs := by
  unfold buildTree at h
  cases h1 : numCol cols "ra".toList with
  | error e => rw [h1] at h; cases h
  | ok ras =>
    rw [h1] at h
    cases h2 : numCol cols "dec".toList with
    | error e => rw [h2] at h; cases h
    | ok decs =>
      rw [h2] at h
      cases h
      exact ⟨ras, decs, numCol_ok.1 h1, numCol_ok.1 h2, rfl⟩

theorem fresh_of_build {t : ObsTable} (hwf : WF t) (h : buildTree t.cols = .ok t.tree) : FreshTree t := by
  obtain ⟨ras, decs, h1, h2, h3⟩ := buildTree_ok h
  refine ⟨ras, decs, h1, h2, ?_, ?_, h3⟩
  · simpa using hwf.1 _ (Dict.mem_of_get? h1)
  · simpa using hwf.1 _ (Dict.mem_of_get? h2)

theorem remap_spec (columns : List Name) (colmap : List (Name × Name)) : ∀ (nm inv nm' inv' : Dict Name Name)
    (L : List (Name × Name)),
    (∀ v k, nm.get? v = some k → (k, v) ∈ L ∧ v ∈ columns ∧ (k ∉ columns ∨ k = v)) →
    (∀ v, v ∈ columns → inv.get? v = nm.get? v) →
    (∀ k v, (k, v) ∈ L → inv.get? v ≠ none) →
    remap columns colmap nm inv = .ok (nm', inv') →
    (∀ v k, nm'.get? v = some k → (k, v) ∈ L ++ colmap ∧ v ∈ columns ∧ (k ∉ columns ∨ k = v)) ∧
    (∀ v, v ∈ columns → inv'.get? v = nm'.get? v) ∧
    (∀ k v, (k, v) ∈ L ++ colmap → inv'.get? v ≠ none) := by
  induction colmap with
  | nil => intro nm inv nm' inv' L h1 h2 h3 h; simp only [remap, Except.ok.injEq, Prod.mk.injEq] at h; obtain ⟨rfl, rfl⟩ := h; simpa using ⟨h1, h2, h3⟩
  | cons q colmap ih =>
    intro nm inv nm' inv' L h1 h2 h3 h
    obtain ⟨key, value⟩ := q
    simp only [remap] at h
    have hL : L ++ (key, value) :: colmap = (L ++ [(key, value)]) ++ colmap := by simp
    rw [hL]
    have h3' : ∀ (k v : Name), (k, v) ∈ L ++ [(key, value)] → Dict.get? (Dict.set inv value key) v ≠ none := by
      intro k v hm
      rw [Dict.get?_set]
      split
      · simp
      · rename_i hne
        rcases List.mem_append.1 hm with hm | hm
        · exact h3 k v hm
        · simp only [List.mem_singleton, Prod.mk.injEq] at hm
          exact absurd hm.2.symm hne
    by_cases hv : value ∈ columns
    · rw [if_pos hv] at h
      by_cases hk : key ∈ columns ∧ key ≠ value
      · rw [if_pos hk] at h; cases h
      · rw [if_neg hk] at h
        refine ih _ _ _ _ (L ++ [(key, value)]) ?_ ?_ h3' h
        · intro v k hg
          rw [Dict.get?_set] at hg
          split at hg
          · rename_i e
            subst e
            cases hg
            refine ⟨by simp, hv, ?_⟩
            by_cases hkc : key ∈ columns
            · right; by_contra hne; exact hk ⟨hkc, hne⟩
            · exact Or.inl hkc
          · obtain ⟨a, b⟩ := h1 v k hg
            exact ⟨List.mem_append_left _ a, b⟩
        · intro v hvc
          rw [Dict.get?_set, Dict.get?_set]
          split
          · rfl
          · exact h2 v hvc
    · rw [if_neg hv] at h
      refine ih _ _ _ _ (L ++ [(key, value)]) ?_ ?_ h3' h
      · intro v k hg
        obtain ⟨a, b⟩ := h1 v k hg
        exact ⟨List.mem_append_left _ a, b⟩
      · intro v hvc
        rw [Dict.get?_set]
        split
        · rename_i e; subst e; exact absurd hvc hv
        · exact h2 v hvc

theorem key_unique {d : Dict Name Name} (hd : d.keys.Nodup) {k a b : Name} (h1 : (k, a) ∈ d) (h2 : (k, b) ∈ d) : a = b := by
  have := Dict.get?_of_mem hd h1
  rw [Dict.get?_of_mem hd h2] at this
  cases this; rfl

/-- The renaming is injective on the columns. -/
theorem rename_inj {columns : List Name} {colmap nm inv : Dict Name Name} (hn : colmap.keys.Nodup)
    (h : remap columns colmap [] [] = .ok (nm, inv)) {c c' : Name} (hc : c ∈ columns) (hc' : c' ∈ columns)
    (he : (nm.get? c).getD c = (nm.get? c').getD c') : c = c' := by
  obtain ⟨s1, s2, s3⟩ := remap_spec columns colmap [] [] nm inv [] (by simp) (by simp) (by simp) h
  simp only [List.nil_append] at s1
  cases h1 : nm.get? c with
  | none =>
    cases h2 : nm.get? c' with
    | none => rw [h1, h2] at he; simpa using he
    | some k' =>
      rw [h1, h2] at he
      simp only [Option.getD_none, Option.getD_some] at he
      subst he
      obtain ⟨_, _, h | h⟩ := s1 _ _ h2
      · exact absurd hc h
      · exact h
  | some k =>
    cases h2 : nm.get? c' with
    | none =>
      rw [h1, h2] at he
      simp only [Option.getD_none, Option.getD_some] at he
      subst he
      obtain ⟨_, _, h | h⟩ := s1 _ _ h1
      · exact absurd hc' h
      · exact h.symm
    | some k' =>
      rw [h1, h2] at he
      simp only [Option.getD_some] at he
      subst he
      exact key_unique hn (s1 _ _ h1).1 (s1 _ _ h2).1

theorem rename_nodup {cols : Dict Name (List Cell)} {colmap nm inv : Dict Name Name} (hc : cols.keys.Nodup)
    (hn : colmap.keys.Nodup) (h : remap cols.keys colmap [] [] = .ok (nm, inv)) : (rename nm cols).keys.Nodup := by
  have : (rename nm cols).keys = cols.keys.map fun c => (nm.get? c).getD c := by
    unfold rename Dict.keys
    simp [List.map_map, Function.comp_def]
  rw [this]
  refine List.Nodup.map_on ?_ hc
  intro a ha b hb e
  exact rename_inj hn h ha hb e

theorem WF_set {t : ObsTable} (h : WF t) {name : Name} {l : List Cell} (hl : l.length = t.len) :
    WF { t with cols := t.cols.set name l } := by
  refine ⟨?_, Dict.nodup_set h.2 _ _⟩
  intro q hq
  have hg := Dict.get?_of_mem (Dict.nodup_set h.2 name l) (k := q.1) (v := q.2) hq
  rw [Dict.get?_set] at hg
  split at hg
  · cases hg; exact hl
  · exact h.1 _ (Dict.mem_of_get? hg)

theorem addColumn_ok {t t' : ObsTable} {name : Name} {v : ColArg} {o : Bool} (h : t.addColumn name v o = .ok t') :
    (t.cols.has name = false ∨ o = true) ∧ ∃ l : List Cell, l.length = t.len ∧ t' = { t with cols := t.cols.set name l } ∧
      (match v with | .scalar c => l = List.replicate t.len c | .column c => l = c) := by
  unfold addColumn at h
  by_cases hc : t.cols.has name = true ∧ o = false
  · rw [if_pos hc] at h; cases h
  · rw [if_neg hc] at h
    refine ⟨?_, ?_⟩
    · cases h1 : t.cols.has name
      · exact Or.inl rfl
      · cases o
        · exact absurd ⟨h1, rfl⟩ hc
        · exact Or.inr rfl
    · cases v with
      | scalar c => cases h; exact ⟨_, by simp, rfl, rfl⟩
      | column c =>
        simp only at h
        split at h
        · rename_i hl; cases h; exact ⟨c, hl, rfl, rfl⟩
        · cases h

theorem filterRows_ok {t t' : ObsTable} {rows : RowSel} (h : t.filterRows rows = .ok t') :
    ∃ m, rowMask t.len rows = .ok m ∧ t'.cols = t.cols.map (fun q => (q.1, keep m q.2)) ∧ t'.labels = keep m t.labels ∧
      buildTree t'.cols = .ok t'.tree ∧ t'.footprint = t.footprint ∧ t'.survey = t.survey ∧ t'.filters = t.filters ∧
      t'.invColmap = t.invColmap := by
  unfold filterRows at h
  cases hm : rowMask t.len rows with
  | error e => rw [hm] at h; cases h
  | ok m =>
    rw [hm] at h
    simp only at h
    have hcols : (t.cols.map fun q => (q.1, gather m q.2)) = t.cols.map (fun q => (q.1, keep m q.2)) := by
      apply List.map_congr_left; intro q _; rw [keep_eq_gather]
    cases hb : buildTree (t.cols.map fun q => (q.1, gather m q.2)) with
    | error e => rw [hb] at h; cases h
    | ok tree =>
      rw [hb] at h
      cases h
      exact ⟨m, rfl, hcols, keep_eq_gather _ _, hb, rfl, rfl, rfl, rfl⟩

theorem setTrue_length {is : List Int} {m m' : List Bool} (h : setTrue is m = .ok m') : m'.length = m.length := by
  induction is generalizing m with
  | nil => cases h; rfl
  | cons i is ih =>
    simp only [setTrue] at h
    split at h
    · cases h
    · rw [ih h]; simp

theorem rowMask_length {n : Nat} {rows : RowSel} {m : List Bool} (h : rowMask n rows = .ok m) : m.length = n := by
  cases rows with
  | mask k =>
    simp only [rowMask] at h
    split at h
    · cases h
    · rename_i hk; cases h; simpa using hk
  | index l => simp only [rowMask] at h; rw [setTrue_length h]; simp
  | emptyList => cases h

theorem assignConstant_ok {t t' : ObsTable} {name : Name} {cp b : Bool} (h : t.assignConstant name cp = .ok (t', b)) :
    t' = t ∨ (t.cols.has name = false ∧ ∃ v, t.addColumn name v = .ok t') := by
  unfold assignConstant at h
  by_cases hn : t.cols.has name = true
  · rw [if_pos hn] at h; cases h; exact Or.inl rfl
  · rw [if_neg hn] at h
    cases hs : t.survey.get? name with
    | none => rw [hs] at h; cases h; exact Or.inl rfl
    | some v =>
      rw [hs] at h
      cases v with
      | none => cases h; exact Or.inl rfl
      | _ =>
        simp only at h
        split at h
        · cases h
        · split at h
          · cases h
          · split at h
            · cases h
            · rename_i hh
              cases h
              exact Or.inr ⟨by simpa using hn, _, hh⟩

theorem built_spec {t : ObsTable} (h : Built t) : WF t ∧ FreshTree t := by
  induction h with
  | @init required zp cols labels colmap survey fp t hl hc hn hz h =>
    unfold ObsTable.init at h
    cases hr : remap cols.keys colmap [] [] with
    | error e => rw [hr] at h; cases h
    | ok p =>
      obtain ⟨nm, inv⟩ := p
      rw [hr] at h
      simp only at h
      split at h
      · cases hf : uniqueFilters (rename nm cols) with
        | error e => rw [hf] at h; cases h
        | ok fs =>
          rw [hf] at h
          simp only at h
          have hwf : WF ⟨rename nm cols, labels, inv, survey, fs, [], fp⟩ := by
            refine ⟨?_, rename_nodup hc hn hr⟩
            intro q hq
            obtain ⟨q', hq', rfl⟩ := List.mem_map.1 hq
            exact hl q' hq'
          generalize hu : (⟨rename nm cols, labels, inv, survey, fs, [], fp⟩ : ObsTable) = u at *
          cases hx : (if u.contains "zp".toList then Except.ok u else zp u) with
          | error e => rw [hx] at h; cases h
          | ok u' =>
            rw [hx] at h
            simp only at h
            have hwf' : WF u' := by
              split at hx
              · cases hx; exact hwf
              · exact hz _ _ hwf hx
            cases hb : buildTree u'.cols with
            | error e => rw [hb] at h; cases h
            | ok tree =>
              rw [hb] at h
              cases h
              exact ⟨hwf', fresh_of_build (t := { u' with tree := tree }) hwf' hb⟩
      · cases h
  | @add t name v o t' _ h1 h2 h ih =>
    obtain ⟨_, l, hl, rfl, _⟩ := addColumn_ok h
    refine ⟨WF_set ih.1 hl, ?_⟩
    obtain ⟨ras, decs, e1, e2, e3, e4, e5⟩ := ih.2
    refine ⟨ras, decs, ?_, ?_, e3, e4, e5⟩
    · exact (Dict.get?_set_ne _ _ h1).trans e1
    · exact (Dict.get?_set_ne _ _ h2).trans e2
  | @filter t rows t' _ h ih =>
    obtain ⟨m, hm, hcols, hlab, hb, -⟩ := filterRows_ok h
    have hml := rowMask_length hm
    have hwf : WF t' := by
      refine ⟨?_, ?_⟩
      · intro q hq
        rw [hcols] at hq
        obtain ⟨q', hq', rfl⟩ := List.mem_map.1 hq
        have := ih.1.1 q' hq'
        unfold ObsTable.len at *
        simp only
        rw [hlab, keep_length _ _ (by omega), keep_length _ _ (by omega)]
      · have := ih.1.2
        unfold Dict.keys at *
        rw [hcols]
        simpa [List.map_map, Function.comp_def] using this
    exact ⟨hwf, fresh_of_build hwf hb⟩
  | @radius t x t' _ h ih =>
    unfold setRadius at h
    split at h
    · cases h
    · cases h; exact ih
  | clear _ ih => exact ih
  | @constant t name cp t' b _ h ih =>
    rcases assignConstant_ok h with rfl | ⟨hn, v, h⟩
    · exact ih
    · obtain ⟨_, l, hl, rfl, _⟩ := addColumn_ok h
      refine ⟨WF_set ih.1 hl, ?_⟩
      obtain ⟨ras, decs, e1, e2, e3, e4, e5⟩ := ih.2
      have h1 : name ≠ "ra".toList := by
        rintro rfl; unfold Dict.has at hn; rw [e1] at hn; cases hn
      have h2 : name ≠ "dec".toList := by
        rintro rfl; unfold Dict.has at hn; rw [e2] at hn; cases hn
      exact ⟨ras, decs, (Dict.get?_set_ne _ _ h1).trans e1, (Dict.get?_set_ne _ _ h2).trans e2, e3, e4, e5⟩

end LCL.ObsLemmas
