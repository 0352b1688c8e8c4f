import Verif.Spec.Narrow
import Verif.Props.EndToEnd

/-!
# C133: narrowing a survey only drops observations

Filtering the rows of a survey, a smaller search radius, a narrower time window, a detector footprint or leaving out the last surveys changes a simulation only by
dropping observations: the remaining ones have the same times, filters, noise-free fluxes and errors.
-/

namespace LCL.NarrowProps
open LCL LCL.ObsSpec LCL.SimSpec LCL.EndToEnd LCL.EndToEndSpec LCL.EndToEndProps LCL.PhotSpec LCL.NarrowSpec LCL.ObsLemmas

variable {R : Type}

/-! ### Masks -/

theorem keep_zip {β γ : Type} : ∀ (m : List Bool) (l : List β) (l' : List γ), l.length = l'.length → keep m (l.zip l') = (keep m l).zip (keep m l')
  | [], _, _, _ => by simp [keep]
  | b :: m, [], [], _ => by simp [keep]
  | true :: m, x :: l, y :: l', h => by
    simp only [List.zip_cons_cons, keep]
    rw [keep_zip m l l' (by simpa using h)]
  | false :: m, x :: l, y :: l', h => by
    simp only [List.zip_cons_cons, keep]
    rw [keep_zip m l l' (by simpa using h)]

theorem mem_of_keep {β : Type} : ∀ (m : List Bool) (l : List β) (x : β), x ∈ keep m l → x ∈ l
  | [], _, _, h => by simp [keep] at h
  | b :: m, [], _, h => by simp [keep] at h
  | true :: m, y :: l, x, h => by
    simp only [keep, List.mem_cons] at h ⊢
    rcases h with h | h
    · exact Or.inl h
    · exact Or.inr (mem_of_keep m l x h)
  | false :: m, y :: l, x, h => List.mem_cons_of_mem _ (mem_of_keep m l x (by simpa [keep] using h))

theorem keep_filter {β : Type} (f : β → Bool) : ∀ l : List β, keep (l.map f) l = l.filter f
  | [] => rfl
  | x :: l => by
    rw [List.map_cons, List.filter_cons]
    cases f x with
    | true => simp only [keep, if_true]; rw [keep_filter f l]
    | false => simp only [keep]; rw [keep_filter f l]; rfl

theorem keep_index {β : Type} : ∀ (m : List Bool) (l : List β) (o : Nat), m.length = l.length → ∀ p : Nat,
    (keep m l)[p]? = ((keep m (List.range' o m.length))[p]?).bind fun q => l[q - o]?
  | [], [], _, _, p => by simp [keep]
  | b :: m, x :: l, o, h, p => by
    have ih := keep_index m l (o + 1) (by simpa using h)
    have hge : ∀ q, q ∈ keep m (List.range' (o + 1) m.length) → o + 1 ≤ q := by
      intro q hq
      have := mem_of_keep _ _ _ hq
      rw [List.mem_range'_1] at this
      exact this.1
    have step : ∀ p : Nat, ((keep m (List.range' (o + 1) m.length))[p]?).bind (fun q => (x :: l)[q - o]?) = (keep m l)[p]? := by
      intro p
      rw [ih p]
      cases hq : (keep m (List.range' (o + 1) m.length))[p]? with
      | none => rfl
      | some q =>
        have := hge q (List.mem_of_getElem? hq)
        simp only [Option.bind_some]
        rw [show q - o = (q - (o + 1)) + 1 by omega, List.getElem?_cons_succ]
    rw [List.length_cons, List.range'_succ]
    cases b with
    | false => simp only [keep]; exact (step p).symm
    | true =>
      simp only [keep]
      cases p with
      | zero => simp
      | succ p => rw [List.getElem?_cons_succ, List.getElem?_cons_succ]; exact (step p).symm

theorem getD_get {β : Type} (l : List β) (d : β) {p : Nat} (h : p < l.length) : l.getD p d = l[p] := by
  rw [List.getD_eq_getElem?_getD, List.getElem?_eq_getElem h]; rfl

/-- The row of the full table that row `p` of the filtered table is. -/
def nthKept (m : List Bool) (p : Nat) : Nat := (keep m (List.range m.length)).getD p 0

theorem kept_sorted (m : List Bool) : (keep m (List.range m.length)).Pairwise (· < ·) := by
  have : ∀ (m : List Bool) (l : List Nat), l.Pairwise (· < ·) → (keep m l).Pairwise (· < ·) := by
    intro m
    induction m with
    | nil => intro l _; simp [keep]
    | cons b m ih =>
      intro l h
      cases l with
      | nil => simp [keep]
      | cons x l =>
        rw [List.pairwise_cons] at h
        cases b with
        | false => exact ih l h.2
        | true =>
          simp only [keep, List.pairwise_cons]
          exact ⟨fun y hy => h.1 y (mem_of_keep m l y hy), ih l h.2⟩
  exact this m _ List.pairwise_lt_range

theorem mem_kept (m : List Bool) (q : Nat) : q ∈ keep m (List.range m.length) ↔ m[q]? = some true := by
  have : ∀ (m : List Bool) (o q : Nat), q ∈ keep m (List.range' o m.length) ↔ o ≤ q ∧ m[q - o]? = some true := by
    intro m
    induction m with
    | nil => intro o q; simp [keep]
    | cons b m ih =>
      intro o q
      rw [List.length_cons, List.range'_succ]
      have hcase : (o + 1 ≤ q ∧ m[q - (o + 1)]? = some true) ↔ (q ≠ o ∧ o ≤ q ∧ (b :: m)[q - o]? = some true) := by
        constructor
        · rintro ⟨h1, h2⟩
          exact ⟨by omega, by omega, by rw [show q - o = (q - (o + 1)) + 1 by omega, List.getElem?_cons_succ]; exact h2⟩
        · rintro ⟨h0, h1, h2⟩
          exact ⟨by omega, by rw [show q - o = (q - (o + 1)) + 1 by omega, List.getElem?_cons_succ] at h2; exact h2⟩
      cases b with
      | false =>
        simp only [keep]
        rw [ih, hcase]
        constructor
        · rintro ⟨_, h⟩; exact h
        · rintro ⟨h1, h2⟩
          refine ⟨?_, h1, h2⟩
          rintro rfl
          simp at h2
      | true =>
        simp only [keep, List.mem_cons]
        rw [ih, hcase]
        constructor
        · rintro (rfl | ⟨_, h⟩)
          · simp
          · exact h
        · rintro h
          by_cases e : q = o
          · exact Or.inl e
          · exact Or.inr ⟨e, h⟩
  have := this m 0 q
  rw [List.range_eq_range']
  simpa using this

theorem nthKept_spec {m : List Bool} {p : Nat} (hp : p < (keep m (List.range m.length)).length) : m[nthKept m p]? = some true := by
  rw [← mem_kept]
  unfold nthKept
  rw [getD_get _ _ hp]
  exact List.getElem_mem hp

theorem nthKept_lt {m : List Bool} {p p' : Nat} (h : p < p') (hp : p' < (keep m (List.range m.length)).length) : nthKept m p < nthKept m p' := by
  unfold nthKept
  rw [getD_get _ _ (by omega), getD_get _ _ hp]
  exact List.pairwise_iff_getElem.1 (kept_sorted m) p p' _ _ h

theorem nthKept_onto {m : List Bool} {q : Nat} (h : m[q]? = some true) : ∃ p, p < (keep m (List.range m.length)).length ∧ nthKept m p = q := by
  obtain ⟨p, hp, e⟩ := List.getElem_of_mem ((mem_kept m q).2 h)
  exact ⟨p, hp, by unfold nthKept; rw [getD_get _ _ hp]; exact e⟩

theorem keep_nth {β : Type} {m : List Bool} {l : List β} (h : m.length = l.length) {p : Nat} (hp : p < (keep m (List.range m.length)).length) :
    (keep m l)[p]? = l[nthKept m p]? := by
  have := keep_index m l 0 h p
  rw [← List.range_eq_range'] at this
  rw [this, List.getElem?_eq_getElem hp]
  unfold nthKept
  rw [getD_get _ _ hp]
  simp

theorem keep_none {β : Type} {m : List Bool} {l : List β} (h : m.length = l.length) {p : Nat} {x : β} (hx : (keep m l)[p]? = some x) :
    p < (keep m (List.range m.length)).length := by
  have := keep_index m l 0 h p
  rw [← List.range_eq_range', hx] at this
  by_contra hc
  rw [List.getElem?_eq_none (by omega)] at this
  cases this

/-! ### Corresponding rows -/

/-- Rows of one table are rows of another: row `p < n` of `t'` is row `φ p` of `t`. -/
structure RowsOf (φ : Nat → Nat) (n : Nat) (t' t : ObsTable) : Prop where
  cells : ∀ name p, p < n → cell t' name p = cell t name (φ p)
  entries : ∀ name p, p < n → entryOf t' name p = entryOf t name (φ p)
  bound : ∀ name p c, cell t' name p = some c → p < n
  survey : ∀ key, key ≠ "radius".toList → t'.survey.get? key = t.survey.get? key

theorem RowsOf.num {φ : Nat → Nat} {n : Nat} {t' t : ObsTable} (h : RowsOf φ n t' t) (name : Name) {p : Nat} (hp : p < n) :
    ObsSpec.num t' name p = ObsSpec.num t name (φ p) := by
  unfold ObsSpec.num
  rw [h.cells name p hp]

theorem RowsOf.rowNum {φ : Nat → Nat} {n : Nat} {t' t : ObsTable} (h : RowsOf φ n t' t) (name : Name) {p : Nat} (hp : p < n) :
    PhotSpec.rowNum t' name p = PhotSpec.rowNum t name (φ p) := h.num name hp

theorem match_bound {φ : Nat → Nat} {n : Nat} {t' t : ObsTable} (h : RowsOf φ n t' t) {q : ℝ × ℝ} {rad : ℝ} {lo hi : Option ℝ} {p : Nat}
    (hm : Match t' q rad lo hi p) : p < n := by
  obtain ⟨ra, _, h1, _⟩ := hm
  unfold ObsSpec.num at h1
  cases hc : cell t' "ra".toList p with
  | none => rw [hc] at h1; cases h1
  | some c => exact h.bound _ _ _ hc

theorem noise_row {t' t : ObsTable} {p q : Nat} (hs : ∀ key, key ≠ "radius".toList → t'.survey.get? key = t.survey.get? key)
    (hr : ∀ name, PhotSpec.rowNum t' name p = PhotSpec.rowNum t name q) {k : Kind} {x y : NoiseArgs}
    (hx : NoiseOf k t' p x) (hy : NoiseOf k t q y) : x = y := by
  cases k with
  | opsim =>
    obtain ⟨a1, a2, a3, a4, a5, a6, a7, a8, p1, p2, p3, p4, p5, p6, p7, p8, rfl⟩ := hx
    obtain ⟨b1, b2, b3, b4, b5, b6, b7, b8, q1, q2, q3, q4, q5, q6, q7, q8, rfl⟩ := hy
    rw [hs _ (by decide), q1] at p1
    rw [hs _ (by decide), q2] at p2
    rw [hs _ (by decide), q3] at p3
    rw [hr, q4] at p4
    rw [hr, q5] at p5
    rw [hr, q6] at p6
    rw [hr, q7] at p7
    rw [hr, q8] at p8
    cases p1; cases p2; cases p3; cases p4; cases p5; cases p6; cases p7; cases p8
    rfl
  | ztf =>
    obtain ⟨a1, a2, a3, a4, a5, a6, a7, p1, p2, p3, p4, p5, p6, p7, rfl⟩ := hx
    obtain ⟨b1, b2, b3, b4, b5, b6, b7, q1, q2, q3, q4, q5, q6, q7, rfl⟩ := hy
    rw [hs _ (by decide), q1] at p1
    rw [hs _ (by decide), q2] at p2
    rw [hs _ (by decide), q3] at p3
    rw [hr, q4] at p4
    rw [hr, q5] at p5
    rw [hr, q6] at p6
    rw [hr, q7] at p7
    cases p1; cases p2; cases p3; cases p4; cases p5; cases p6; cases p7
    rfl
  | roman =>
    obtain ⟨a1, a2, a3, a4, a5, a6, a7, p1, p2, p3, p4, p5, p6, p7, rfl⟩ := hx
    obtain ⟨b1, b2, b3, b4, b5, b6, b7, q1, q2, q3, q4, q5, q6, q7, rfl⟩ := hy
    rw [hs _ (by decide), q1] at p1
    rw [hs _ (by decide), q2] at p2
    rw [hr, q3] at p3
    rw [hr, q4] at p4
    rw [hr, q5] at p5
    rw [hr, q6] at p6
    rw [hr, q7] at p7
    cases p1; cases p2; cases p3; cases p4; cases p5; cases p6; cases p7
    rfl

theorem noise_one {φ : Nat → Nat} {n : Nat} {t' t : ObsTable} (h : RowsOf φ n t' t) {k : Kind} {p : Nat} (hp : p < n) {x y : NoiseArgs}
    (hx : NoiseOf k t' p x) (hy : NoiseOf k t (φ p) y) : x = y := noise_row h.survey (fun name => h.rowNum name hp) hx hy

/-- The same measurement gives the same entries. -/
theorem measured_one {φ : Nat → Nat} {n : Nat} {a' a : SurveyArg} (h : RowsOf φ n a'.table a.table) (hk : a'.kind = a.kind) {P : Name → ℝ → ℝ → Prop}
    (hP : ∀ f t x y, P f t x → P f t y → x = y) {j p : Nat} (hp : p < n) {e e' : ℝ} {col col' : Name → List NCell} {i i' : Nat}
    (h' : MeasuredBy a' j p P e' col' i') (h0 : MeasuredBy a j (φ p) P e col i) : ∀ c ∈ perfectCols, (col' c)[i']? = (col c)[i]? := by
  obtain ⟨t', f', x', n', err', p1, p2, p3, p4, p5, p6, p7, p8, p9, p10, p11, _, p12⟩ := h'
  obtain ⟨t, f, x, nn, err, q1, q2, q3, q4, q5, q6, q7, q8, q9, q10, q11, _, q12⟩ := h0
  rw [h.entries _ _ hp, q1] at p1
  rw [h.entries _ _ hp, q2] at p2
  cases p1; cases p2
  cases hP _ _ _ _ p3 q3
  rw [hk] at p4
  cases noise_one h hp p4 q4
  have : err' = err := by rw [p7, q7]
  subst this
  intro c hc
  simp only [perfectCols, List.mem_cons, List.not_mem_nil, or_false] at hc
  rcases hc with rfl | rfl | rfl | rfl | rfl
  · rw [p8, q8]
  · rw [p9, q9]
  · rw [p10, q10]
  · rw [p11, q11]
  · rw [p12, q12]

theorem lex_unique : ∀ {l l' : List (Nat × Nat)}, l.Pairwise (fun x y => x.1 < y.1 ∨ x.1 = y.1 ∧ x.2 < y.2) →
    l'.Pairwise (fun x y => x.1 < y.1 ∨ x.1 = y.1 ∧ x.2 < y.2) → (∀ x, x ∈ l ↔ x ∈ l') → l = l' := by
  intro l l' h h' hm
  have irr : ∀ x : Nat × Nat, ¬ (x.1 < x.1 ∨ x.1 = x.1 ∧ x.2 < x.2) := by intro x; omega
  have nd : ∀ {l : List (Nat × Nat)}, l.Pairwise (fun x y => x.1 < y.1 ∨ x.1 = y.1 ∧ x.2 < y.2) → l.Nodup := by
    intro l h
    exact h.imp (by rintro a b hab rfl; exact irr a hab)
  have hp : l.Perm l' := (List.perm_ext_iff_of_nodup (nd h) (nd h')).2 hm
  exact hp.eq_of_pairwise (fun a b _ _ h1 h2 => by
    rcases a with ⟨a1, a2⟩; rcases b with ⟨b1, b2⟩
    simp only at h1 h2
    omega) h h'

/-- The common argument: the narrower run observes rows of the wider one, in the same order. -/
theorem narrowed {φ : Nat → Nat → Nat} {obs obs' : List (Nat × Nat)} {col col' : Name → List NCell} {K : Nat × Nat → Bool}
    (hs : obs.Pairwise (fun x y => x.1 < y.1 ∨ x.1 = y.1 ∧ x.2 < y.2)) (hs' : obs'.Pairwise (fun x y => x.1 < y.1 ∨ x.1 = y.1 ∧ x.2 < y.2))
    (hmap : ∀ j p, (j, p) ∈ obs' → (j, φ j p) ∈ obs) (hmono : ∀ j p p', (j, p) ∈ obs' → (j, p') ∈ obs' → p < p' → φ j p < φ j p')
    (hK : ∀ j q, (j, q) ∈ obs → (K (j, q) = true ↔ ∃ p, (j, p) ∈ obs' ∧ φ j p = q))
    {cols : List Name} (hl : ∀ c ∈ cols, (col c).length = obs.length) (hl' : ∀ c ∈ cols, (col' c).length = obs'.length)
    (hm : ∀ (i i' j p : Nat), obs'[i']? = some (j, p) → obs[i]? = some (j, φ j p) → ∀ c ∈ cols, (col' c)[i']? = (col c)[i]?) :
    ∀ c ∈ cols, col' c = keep (obs.map K) (col c) := by
  intro c hc
  have hobs : keep (obs.map K) obs = obs'.map fun x => (x.1, φ x.1 x.2) := by
    rw [keep_filter]
    refine lex_unique (hs.filter _) ?_ ?_
    · rw [List.pairwise_map]
      refine List.Pairwise.imp_of_mem ?_ hs'
      rintro ⟨j, p⟩ ⟨j', p'⟩ ha hb h
      simp only at h ⊢
      rcases h with h | ⟨rfl, h⟩
      · exact Or.inl h
      · exact Or.inr ⟨rfl, hmono _ _ _ ha hb h⟩
    · rintro ⟨j, q⟩
      rw [List.mem_filter, List.mem_map]
      constructor
      · rintro ⟨h1, h2⟩
        obtain ⟨p, h3, rfl⟩ := (hK j q h1).1 h2
        exact ⟨(j, p), h3, rfl⟩
      · rintro ⟨⟨j', p⟩, h1, h2⟩
        simp only [Prod.mk.injEq] at h2
        obtain ⟨rfl, rfl⟩ := h2
        exact ⟨hmap _ _ h1, (hK _ _ (hmap _ _ h1)).2 ⟨p, h1, rfl⟩⟩
  have hz := keep_zip (obs.map K) obs (col c) (hl c hc).symm
  have hlen : (keep (obs.map K) (col c)).length = (keep (obs.map K) obs).length := by
    rw [keep_length _ _ (by rw [List.length_map, hl c hc]), keep_length _ _ (by rw [List.length_map])]
  have hlo : (keep (obs.map K) obs).length = obs'.length := by rw [hobs, List.length_map]
  refine List.ext_getElem? fun i => ?_
  by_cases hi : i < obs'.length
  · rcases hx : obs'[i] with ⟨j, p⟩
    have h1 : obs'[i]? = some (j, p) := by rw [List.getElem?_eq_getElem hi, hx]
    have h2 : (keep (obs.map K) obs)[i]? = some (j, φ j p) := by rw [hobs, List.getElem?_map, h1]; rfl
    obtain ⟨y, h3⟩ : ∃ y, (keep (obs.map K) (col c))[i]? = some y := ⟨_, List.getElem?_eq_getElem (by omega)⟩
    have h4 : (keep (obs.map K) (obs.zip (col c)))[i]? = some ((j, φ j p), y) := by
      rw [hz, List.getElem?_zip_eq_some]
      exact ⟨h2, h3⟩
    obtain ⟨i0, hi0⟩ := List.getElem?_of_mem (mem_of_keep _ _ _ (List.mem_of_getElem? h4))
    rw [List.getElem?_zip_eq_some] at hi0
    rw [h3, ← hi0.2]
    exact hm i0 i j p h1 hi0.1 c hc
  · rw [List.getElem?_eq_none (by rw [hl' c hc]; omega), List.getElem?_eq_none (by omega)]

/-! ### Two runs -/

theorem two_runs {ev : PassbandGroup ℝ → List ℝ → List Name → SState ℝ → R → Except Err (List ℝ × R)} {P : PassbandGroup ℝ → SState ℝ → Name → ℝ → ℝ → Prop}
    (hP : OneFlux P) {isBand : Bool} {draw : R → ℝ × R} {states : List SimState} {args args' : List SurveyArg} {saveCols : List Name}
    {offset offset' : Option (List (Option ℝ))} {r r' r1 r1' : R} {res res' : SimResult}
    (hr : Ready ev P states args saveCols) (hr' : Ready ev P states args' saveCols)
    (h : simulateWith isBand (fun a => ev a.group) draw states args saveCols offset r = .ok (res, r1))
    (h' : simulateWith isBand (fun a => ev a.group) draw states args' saveCols offset' r' = .ok (res', r1'))
    {φ : Nat → Nat → Nat} {n : Nat → Nat}
    (hrel : ∀ (j : Nat) (a' : SurveyArg), args'[j]? = some a' → ∃ a : SurveyArg, args[j]? = some a ∧ a'.kind = a.kind ∧ a'.group = a.group ∧ RowsOf (φ j) (n j) a'.table a.table)
    {k : Nat} {s : SimState} (hk : states[k]? = some s) :
    ∃ ra dec obs obs', ObservationsOf args offset s ra dec obs ∧ ObservationsOf args' offset' s ra dec obs' ∧
      res.nobs[k]? = some obs.length ∧ res'.nobs[k]? = some obs'.length ∧ (∀ c ∈ baseCols, (lightcurve res.nested k c).length = obs.length) ∧
      (∀ (i j q : Nat), obs[i]? = some (j, q) → ∃ a, args[j]? = some a ∧
        MeasuredBy a j q (P a.group s.state) (drawAt draw r ((res.nobs.take k).sum + i)) (lightcurve res.nested k) i) ∧
      ∀ K : Nat × Nat → Bool, (∀ j p, (j, p) ∈ obs' → (j, φ j p) ∈ obs) → (∀ j p p', (j, p) ∈ obs' → (j, p') ∈ obs' → p < p' → φ j p < φ j p') →
        (∀ j q, (j, q) ∈ obs → (K (j, q) = true ↔ ∃ p, (j, p) ∈ obs' ∧ φ j p = q)) →
        ∀ c ∈ perfectCols, lightcurve res'.nested k c = keep (obs.map K) (lightcurve res.nested k c) := by
  obtain ⟨g1, g2, g3, g4, g5, g6⟩ := hr
  obtain ⟨g1', g2', g3', g4', g5', g6'⟩ := hr'
  obtain ⟨-, -, -, -, -, H⟩ := C110_fluxes (ev := fun a => ev a.group) (fun a => g6 a.group) (fun a st => P a.group st) g1 g2 g3 g4 g5 h
  obtain ⟨-, -, -, -, -, H'⟩ := C110_fluxes (ev := fun a => ev a.group) (fun a => g6 a.group) (fun a st => P a.group st) g1' g2' g3' g4' g5 h'
  obtain ⟨ra, dec, obs, e1, e2, e3, e4, e5, e6, e7⟩ := H k s hk
  obtain ⟨ra', dec', obs', e1', e2', e3', e4', e5', e6', e7'⟩ := H' k s hk
  rw [e1] at e1'; rw [e2] at e2'; cases e1'; cases e2'
  refine ⟨ra, dec, obs, obs', ⟨e1, e2, e4, e5⟩, ⟨e1, e2, e4', e5'⟩, e3, e3', e6, e7, ?_⟩
  intro K hmap hmono hK
  have hsub : ∀ c ∈ perfectCols, c ∈ baseCols := by decide
  refine narrowed e4 e4' hmap hmono hK (fun c hc => e6 c (hsub c hc)) (fun c hc => e6' c (hsub c hc)) ?_
  intro i i' j p h1 h2
  obtain ⟨a', ha', m'⟩ := e7' i' j p h1
  obtain ⟨a, ha, m⟩ := e7 i j (φ j p) h2
  obtain ⟨b, hb, hk', hg, hrow⟩ := hrel j a' ha'
  rw [ha] at hb; cases hb
  obtain ⟨a'', rad, ha'', _, hma⟩ := (e5' j p).1 (List.mem_of_getElem? h1)
  rw [ha'] at ha''; cases ha''
  rw [hg] at m'
  exact measured_one hrow hk' (fun f t x y => hP _ _ f t x y) (match_bound hrow hma) m' m

theorem match_rows {φ : Nat → Nat} {n : Nat} {t' t : ObsTable} (h : RowsOf φ n t' t) (hf : t'.footprint = t.footprint) {q : ℝ × ℝ} {rad : ℝ}
    {lo hi : Option ℝ} {p : Nat} (hp : p < n) : Match t' q rad lo hi p ↔ Match t q rad lo hi (φ p) := by
  unfold Match
  rw [h.num _ hp, h.num _ hp, h.num _ hp, h.num _ hp, hf]

theorem rowsOf_filter {t t' : ObsTable} {m : List Bool} (hw : WF t) (h : t.filterRows (.mask m) = .ok t') :
    RowsOf (nthKept m) (keep m (List.range m.length)).length t' t ∧ t'.footprint = t.footprint ∧ t'.survey = t.survey ∧ m.length = t.len := by
  obtain ⟨m', hm, h1, h2, h3, h4, h5, h6, h7⟩ := filterRows_ok h
  obtain ⟨rfl, hl⟩ : m' = m ∧ m.length = t.len := by
    simp only [ObsTable.rowMask] at hm
    split at hm
    · cases hm
    · cases hm; rename_i e; exact ⟨rfl, by omega⟩
  have hlen : ∀ name c, t.cols.get? name = some c → m'.length = c.length := by
    intro name c hc
    rw [hl, hw.1 _ (Dict.mem_of_get? hc)]
  have hg : ∀ name, t'.cols.get? name = (t.cols.get? name).map (keep m') := by
    intro name
    rw [h1]
    exact get?_mapVals (keep m') t.cols name
  have hcell : ∀ name p, p < (keep m' (List.range m'.length)).length → cell t' name p = cell t name (nthKept m' p) := by
    intro name p hp
    unfold cell
    rw [hg]
    cases hc : t.cols.get? name with
    | none => rfl
    | some c => exact keep_nth (hlen name c hc) hp
  refine ⟨⟨hcell, ?_, ?_, fun key _ => by rw [h5]⟩, h4, h5, hl⟩
  · intro name p hp
    unfold entryOf ObsTable.getItem
    rw [hg, h7]
    cases hc : t.cols.get? name with
    | some c => exact keep_nth (hlen name c hc) hp
    | none =>
      simp only [Option.map_none]
      cases hk : t.invColmap.get? name with
      | none => rfl
      | some k =>
        simp only
        rw [hg]
        cases hc' : t.cols.get? k with
        | none => rfl
        | some c => exact keep_nth (hlen k c hc') hp
  · intro name p c hc
    unfold cell at hc
    rw [hg] at hc
    cases hc' : t.cols.get? name with
    | none => rw [hc'] at hc; cases hc
    | some c' => rw [hc'] at hc; exact keep_none (hlen name c' hc') hc

/-- C133, filtering the tables: simulating with only the rows kept by the masks gives, for every object, exactly the observations of those rows, with unchanged times,
filters, noise-free fluxes and errors. -/
theorem C133_filter {ev : PassbandGroup ℝ → List ℝ → List Name → SState ℝ → R → Except Err (List ℝ × R)} {P : PassbandGroup ℝ → SState ℝ → Name → ℝ → ℝ → Prop}
    (hP : OneFlux P) {isBand : Bool} {draw : R → ℝ × R} {states : List SimState} {args args' : List SurveyArg} {saveCols : List Name}
    {offset : Option (List (Option ℝ))} {r r' r1 r1' : R} {res res' : SimResult} {masks : List (List Bool)}
    (hr : Ready ev P states args saveCols)
    (hlen : args'.length = args.length ∧ masks.length = args.length)
    (hmask : ∀ (j : Nat) a m a', args[j]? = some a → masks[j]? = some m → args'[j]? = some a' → ∃ t, a.table.filterRows (.mask m) = .ok t ∧ a' = withTable a t)
    (h : simulateWith isBand (fun a => ev a.group) draw states args saveCols offset r = .ok (res, r1))
    (h' : simulateWith isBand (fun a => ev a.group) draw states args' saveCols offset r' = .ok (res', r1')) :
    ∀ (k : Nat) (s : SimState), states[k]? = some s → ∃ ra dec obs, ObservationsOf args offset s ra dec obs ∧ res.nobs[k]? = some obs.length ∧
      ∀ c ∈ perfectCols, lightcurve res'.nested k c = keep (obs.map fun x => (masks.getD x.1 []).getD x.2 false) (lightcurve res.nested k c) := by
  have hrel : ∀ (j : Nat) (a' : SurveyArg), args'[j]? = some a' → ∃ (a : SurveyArg) (m : List Bool), args[j]? = some a ∧ masks[j]? = some m ∧ a'.kind = a.kind ∧ a'.group = a.group ∧
      RowsOf (nthKept m) (keep m (List.range m.length)).length a'.table a.table ∧ a'.table.footprint = a.table.footprint ∧
      a'.table.survey = a.table.survey ∧ Built a'.table := by
    intro j a' ha'
    have hj : j < args'.length := (List.getElem?_eq_some_iff.1 ha').1
    have h1 : args[j]? = some (args[j]'(by omega)) := List.getElem?_eq_getElem _
    have h2 : masks[j]? = some (masks[j]'(by omega)) := List.getElem?_eq_getElem _
    obtain ⟨t, ht, rfl⟩ := hmask j _ _ _ h1 h2 ha'
    have hb := hr.2.2.1 _ (List.mem_of_getElem? h1)
    obtain ⟨q1, q2, q3, q4⟩ := rowsOf_filter (built_spec hb).1 ht
    exact ⟨_, _, h1, h2, rfl, rfl, q1, q2, q3, Built.filter hb ht⟩
  have hr' : Ready ev P states args' saveCols := by
    obtain ⟨g1, g2, g3, g4, g5, g6⟩ := hr
    refine ⟨fun e => g1 (List.length_eq_zero_iff.1 (by rw [← hlen.1, e]; rfl)), ?_, ?_, ?_, g5, g6⟩
    · intro s hs a' ha'
      obtain ⟨j, hj⟩ := List.getElem?_of_mem ha'
      obtain ⟨a, m, e1, e2, e3, e4, -⟩ := hrel j a' hj
      rw [e4]
      exact g2 s hs a (List.mem_of_getElem? e1)
    · intro a' ha'
      obtain ⟨j, hj⟩ := List.getElem?_of_mem ha'
      obtain ⟨a, m, e1, e2, e3, e4, e5, e6, e7, e8⟩ := hrel j a' hj
      exact e8
    · intro a' ha'
      obtain ⟨j, hj⟩ := List.getElem?_of_mem ha'
      obtain ⟨a, m, e1, e2, e3, e4, e5, e6, e7, e8⟩ := hrel j a' hj
      unfold ObsTable.radius
      rw [e7]
      exact g4 a (List.mem_of_getElem? e1)
  intro k s hk
  obtain ⟨ra, dec, obs, obs', o1, o2, o3, -, -, -, key⟩ := two_runs (φ := fun j => nthKept (masks.getD j []))
    (n := fun j => (keep (masks.getD j []) (List.range (masks.getD j []).length)).length) hP hr hr' h h' (by
      intro j a' ha'
      obtain ⟨a, m, e1, e2, e3, e4, e5, -⟩ := hrel j a' ha'
      refine ⟨a, e1, e3, e4, ?_⟩
      rw [List.getD_eq_getElem?_getD, e2]
      exact e5) hk
  refine ⟨ra, dec, obs, o1, o3, key _ ?_ ?_ ?_⟩
  · intro j p hp
    obtain ⟨a', rad, q1, q2, q3⟩ := (o2.2.2.2 j p).1 hp
    obtain ⟨a, m, e1, e2, e3, e4, e5, e6, e7, -⟩ := hrel j a' q1
    rw [List.getD_eq_getElem?_getD, e2, o1.2.2.2]
    refine ⟨a, rad, e1, ?_, (match_rows e5 e6 (match_bound e5 q3)).1 q3⟩
    unfold ObsTable.radius at q2 ⊢
    rw [← e7]
    exact q2
  · intro j p p' hp hp' hlt
    obtain ⟨a', rad, q1, q2, q3⟩ := (o2.2.2.2 j p').1 hp'
    obtain ⟨a, m, e1, e2, e3, e4, e5, e6, e7, -⟩ := hrel j a' q1
    rw [List.getD_eq_getElem?_getD, e2]
    exact nthKept_lt hlt (match_bound e5 q3)
  · intro j q hq
    obtain ⟨a, rad, q1, q2, q3⟩ := (o1.2.2.2 j q).1 hq
    have hj : j < args.length := (List.getElem?_eq_some_iff.1 q1).1
    obtain ⟨b, m, e1, e2, e3, e4, e5, e6, e7, -⟩ := hrel j (args'[j]'(by omega)) (List.getElem?_eq_getElem _)
    rw [q1] at e1; cases e1
    have hgm : masks.getD j [] = m := by rw [List.getD_eq_getElem?_getD, e2]; rfl
    dsimp only
    rw [hgm]
    constructor
    · intro hm
      have hm' : m[q]? = some true := by
        rw [List.getD_eq_getElem?_getD] at hm
        cases hc : m[q]? with
        | none => rw [hc] at hm; cases hm
        | some b => rw [hc] at hm; exact congrArg some hm
      obtain ⟨p, hp, rfl⟩ := nthKept_onto hm'
      refine ⟨p, (o2.2.2.2 j p).2 ⟨_, rad, List.getElem?_eq_getElem _, ?_, (match_rows e5 e6 hp).2 q3⟩, rfl⟩
      unfold ObsTable.radius at q2 ⊢
      rw [e7]
      exact q2
    · rintro ⟨p, hp, rfl⟩
      obtain ⟨a', rad', w1, w2, w3⟩ := (o2.2.2.2 j p).1 hp
      rw [List.getElem?_eq_getElem (by omega)] at w1
      cases w1
      rw [List.getD_eq_getElem?_getD, nthKept_spec (match_bound e5 w3)]
      rfl

/-! ### The same rows -/

theorem rowsOf_same {t' t : ObsTable} (hw : WF t) (h1 : t'.cols = t.cols) (h2 : t'.invColmap = t.invColmap)
    (h3 : ∀ key, key ≠ "radius".toList → t'.survey.get? key = t.survey.get? key) : RowsOf (fun p => p) t.len t' t := by
  refine ⟨fun name p _ => by unfold cell; rw [h1], fun name p _ => by unfold entryOf ObsTable.getItem; rw [h1, h2], ?_, h3⟩
  intro name p c hc
  unfold cell at hc
  rw [h1] at hc
  cases hc' : t.cols.get? name with
  | none => rw [hc'] at hc; cases hc
  | some c' =>
    rw [hc'] at hc
    rw [← hw.1 _ (Dict.mem_of_get? hc')]
    exact (List.getElem?_eq_some_iff.1 hc).1

theorem wider_window {t : ObsTable} {q : ℝ × ℝ} {rad : ℝ} {lo hi lo' hi' : Option ℝ} {p : Nat} (h1 : ∀ b, lo = some b → ∃ b', lo' = some b' ∧ b ≤ b')
    (h2 : ∀ b, hi = some b → ∃ b', hi' = some b' ∧ b' ≤ b) (h : Match t q rad lo' hi' p) : Match t q rad lo hi p := by
  obtain ⟨ra, dec, e1, e2, e3, e4, e5, e6⟩ := h
  refine ⟨ra, dec, e1, e2, e3, ?_, ?_, e6⟩
  · intro b hb
    obtain ⟨b', hb', hle⟩ := h1 b hb
    obtain ⟨tm, ht, hl⟩ := e4 b' hb'
    exact ⟨tm, ht, hle.trans hl⟩
  · intro b hb
    obtain ⟨b', hb', hle⟩ := h2 b hb
    obtain ⟨tm, ht, hl⟩ := e5 b' hb'
    exact ⟨tm, ht, hl.trans hle⟩

/-- C133, a narrower time window: the lightcurve is the part of the wider one between `t0 - b` and `t0 + a`, ends included. -/
theorem C133_window {ev : PassbandGroup ℝ → List ℝ → List Name → SState ℝ → R → Except Err (List ℝ × R)} {P : PassbandGroup ℝ → SState ℝ → Name → ℝ → ℝ → Prop}
    (hP : OneFlux P) {isBand : Bool} {draw : R → ℝ × R} {states : List SimState} {args : List SurveyArg} {saveCols : List Name}
    {offset : Option (List (Option ℝ))} {b a : ℝ} {r r' r1 r1' : R} {res res' : SimResult}
    (hr : Ready ev P states args saveCols) (htime : ∀ x ∈ args, x.table.cols.has "time".toList = true)
    (hwide : offset = none ∨ ∃ b' a', offset = some [some b', some a'] ∧ b ≤ b' ∧ a ≤ a')
    (h : simulateWith isBand (fun a => ev a.group) draw states args saveCols offset r = .ok (res, r1))
    (h' : simulateWith isBand (fun a => ev a.group) draw states args saveCols (some [some b, some a]) r' = .ok (res', r1')) :
    ∀ (k : Nat) (s : SimState) (t0 : ℝ), states[k]? = some s → s.t0 = some t0 → ∀ c ∈ perfectCols,
      lightcurve res'.nested k c = keep ((lightcurve res.nested k "mjd".toList).map (between (t0 - b) (t0 + a))) (lightcurve res.nested k c) := by
  intro k s t0 hk ht0 c hc
  have hwf : ∀ (j : Nat) x, args[j]? = some x → WF x.table := fun j x hx => (built_spec (hr.2.2.1 x (List.mem_of_getElem? hx))).1
  obtain ⟨ra, dec, obs, obs', o1, o2, o3, -, o4, o5, key⟩ := two_runs (φ := fun _ p => p)
    (n := fun j => (args[j]?.map fun x => x.table.len).getD 0) hP hr hr h h' (by
      intro j x hx
      refine ⟨x, hx, rfl, rfl, ?_⟩
      rw [hx]
      exact rowsOf_same (hwf j x hx) rfl rfl (fun _ _ => rfl)) hk
  have e1 : winLo (some [some b, some a]) s.t0 = some (t0 - b) := by rw [ht0]; rfl
  have e2 : winHi (some [some b, some a]) s.t0 = some (t0 + a) := by rw [ht0]; rfl
  have w1 : ∀ x, winLo offset s.t0 = some x → ∃ x', winLo (some [some b, some a]) s.t0 = some x' ∧ x ≤ x' := by
    rw [e1]
    intro x hx
    rcases hwide with rfl | ⟨b', a', rfl, hb, ha⟩
    · rw [ht0] at hx; cases hx
    · rw [ht0] at hx; cases hx; exact ⟨_, rfl, by linarith⟩
  have w2 : ∀ x, winHi offset s.t0 = some x → ∃ x', winHi (some [some b, some a]) s.t0 = some x' ∧ x' ≤ x := by
    rw [e2]
    intro x hx
    rcases hwide with rfl | ⟨b', a', rfl, hb, ha⟩
    · rw [ht0] at hx; cases hx
    · rw [ht0] at hx; cases hx; exact ⟨_, rfl, by linarith⟩
  have hsub : ∀ j q, (j, q) ∈ obs' → (j, q) ∈ obs := by
    intro j q hq
    obtain ⟨x, rad, q1, q2, q3⟩ := (o2.2.2.2 j q).1 hq
    exact (o1.2.2.2 j q).2 ⟨x, rad, q1, q2, wider_window w1 w2 q3⟩
  let f : Nat × Nat → ℝ := fun x => ((args[x.1]?).bind fun y => ObsSpec.num y.table "time".toList x.2).getD 0
  classical
  have hnum : ∀ x ∈ args, ∀ q t, entryOf x.table "time".toList q = some (.num t) → ObsSpec.num x.table "time".toList q = some t := by
    intro x hx q t ht
    obtain ⟨c, hc⟩ := Option.isSome_iff_exists.1 (htime x hx)
    have hc : x.table.cols.get? "time".toList = some c := hc
    unfold entryOf ObsTable.getItem at ht
    rw [hc] at ht
    unfold ObsSpec.num cell
    rw [hc]
    simp only [Option.bind_some]
    simp only at ht
    rw [ht]
  have hmjd : (lightcurve res.nested k "mjd".toList).map (between (t0 - b) (t0 + a)) = obs.map fun x => decide (t0 - b ≤ f x ∧ f x ≤ t0 + a) := by
    refine List.ext_getElem? fun i => ?_
    rw [List.getElem?_map, List.getElem?_map]
    cases hx : obs[i]? with
    | none =>
      have : (lightcurve res.nested k "mjd".toList)[i]? = none := by
        rw [List.getElem?_eq_none_iff, o4 _ (by decide)]
        exact List.getElem?_eq_none_iff.1 hx
      rw [this]
      rfl
    | some y =>
      obtain ⟨j, q⟩ := y
      obtain ⟨x, hx', t, fl, xx, nz, er, m1, m2, -, -, -, -, -, m3, -⟩ := o5 i j q hx
      have : f (j, q) = t := by
        show ((args[j]?).bind _).getD 0 = t
        rw [hx']
        simp only [Option.bind_some]
        rw [hnum x (List.mem_of_getElem? hx') q t m1]
        rfl
      rw [m3]
      simp only [Option.map_some]
      rw [this]
      simp only [between]
  rw [hmjd]
  refine key _ hsub (fun _ _ _ _ _ h => h) ?_ c hc
  intro j q hq
  obtain ⟨x, rad, q1, q2, q3⟩ := (o1.2.2.2 j q).1 hq
  obtain ⟨i, hi⟩ := List.getElem?_of_mem hq
  obtain ⟨x', hx', t, fl, xx, nz, er, m1, -⟩ := o5 i j q hi
  rw [q1] at hx'; cases hx'
  have hn := hnum x (List.mem_of_getElem? q1) q t m1
  have hf : f (j, q) = t := by
    show ((args[j]?).bind _).getD 0 = t
    rw [q1]
    simp only [Option.bind_some]
    rw [hn]
    rfl
  rw [hf, decide_eq_true_iff]
  constructor
  · rintro ⟨l1, l2⟩
    refine ⟨q, (o2.2.2.2 j q).2 ⟨x, rad, q1, q2, ?_⟩, rfl⟩
    obtain ⟨ra', dec', y1, y2, y3, y4, y5, y6⟩ := q3
    refine ⟨ra', dec', y1, y2, y3, ?_, ?_, y6⟩
    · intro v hv; rw [e1] at hv; cases hv; exact ⟨t, hn, l1⟩
    · intro v hv; rw [e2] at hv; cases hv; exact ⟨t, hn, l2⟩
  · rintro ⟨p, hp, rfl⟩
    obtain ⟨x', rad', z1, z2, ra', dec', y1, y2, y3, y4, y5, y6⟩ := (o2.2.2.2 j p).1 hp
    rw [q1] at z1; cases z1
    obtain ⟨tm, k1, k2⟩ := y4 _ e1
    obtain ⟨tm', k3, k4⟩ := y5 _ e2
    rw [hn] at k1 k3; cases k1; cases k3
    exact ⟨k2, k4⟩

/-- C133, leaving out the last surveys: the lightcurve is the part of the full one coming from the surveys kept. -/
theorem C133_surveys {ev : PassbandGroup ℝ → List ℝ → List Name → SState ℝ → R → Except Err (List ℝ × R)} {P : PassbandGroup ℝ → SState ℝ → Name → ℝ → ℝ → Prop}
    (hP : OneFlux P) {isBand : Bool} {draw : R → ℝ × R} {states : List SimState} {args : List SurveyArg} {saveCols : List Name}
    {offset : Option (List (Option ℝ))} {n : Nat} {r r' r1 r1' : R} {res res' : SimResult}
    (hr : Ready ev P states args saveCols) (hn : n ≠ 0)
    (h : simulateWith isBand (fun a => ev a.group) draw states args saveCols offset r = .ok (res, r1))
    (h' : simulateWith isBand (fun a => ev a.group) draw states (args.take n) saveCols offset r' = .ok (res', r1')) :
    ∀ (k : Nat) (s : SimState), states[k]? = some s → ∀ c ∈ perfectCols,
      lightcurve res'.nested k c = keep ((lightcurve res.nested k "survey_idx".toList).map (fromFirst n)) (lightcurve res.nested k c) := by
  intro k s hk c hc
  have hsubargs : ∀ (j : Nat) x, (args.take n)[j]? = some x ↔ j < n ∧ args[j]? = some x := by
    intro j x
    rw [List.getElem?_take]
    split
    · rename_i hj; exact ⟨fun h => ⟨hj, h⟩, fun h => h.2⟩
    · rename_i hj; exact ⟨(by intro h; cases h), fun h => absurd h.1 hj⟩
  have hmem : ∀ x, x ∈ args.take n → x ∈ args := fun x hx => List.mem_of_mem_take hx
  have hr' : Ready ev P states (args.take n) saveCols := by
    obtain ⟨g1, g2, g3, g4, g5, g6⟩ := hr
    refine ⟨?_, fun s hs a ha => g2 s hs a (hmem a ha), fun a ha => g3 a (hmem a ha), fun a ha => g4 a (hmem a ha), g5, g6⟩
    intro e
    rcases List.take_eq_nil_iff.1 e with e | e
    · exact hn e
    · exact g1 e
  obtain ⟨ra, dec, obs, obs', o1, o2, o3, -, o4, o5, key⟩ := two_runs (φ := fun _ p => p)
    (n := fun j => (args[j]?.map fun x => x.table.len).getD 0) hP hr hr' h h' (by
      intro j x hx
      have hx := ((hsubargs j x).1 hx).2
      refine ⟨x, hx, rfl, rfl, ?_⟩
      rw [hx]
      exact rowsOf_same (built_spec (hr.2.2.1 x (List.mem_of_getElem? hx))).1 rfl rfl (fun _ _ => rfl)) hk
  have hmask : (lightcurve res.nested k "survey_idx".toList).map (fromFirst n) = obs.map fun x => decide (x.1 < n) := by
    refine List.ext_getElem? fun i => ?_
    rw [List.getElem?_map, List.getElem?_map]
    cases hx : obs[i]? with
    | none =>
      have : (lightcurve res.nested k "survey_idx".toList)[i]? = none := by
        rw [List.getElem?_eq_none_iff, o4 _ (by decide)]
        exact List.getElem?_eq_none_iff.1 hx
      rw [this]
      rfl
    | some y =>
      obtain ⟨j, q⟩ := y
      obtain ⟨x, hx', t, fl, xx, nz, er, -, -, -, -, -, -, -, -, -, -, -, -, m3⟩ := o5 i j q hx
      rw [m3]
      rfl
  rw [hmask]
  have hiff : ∀ j q, (j, q) ∈ obs' ↔ j < n ∧ (j, q) ∈ obs := by
    intro j q
    rw [o1.2.2.2, o2.2.2.2]
    constructor
    · rintro ⟨x, rad, q1, q2⟩
      obtain ⟨h1, h2⟩ := (hsubargs j x).1 q1
      exact ⟨h1, x, rad, h2, q2⟩
    · rintro ⟨h1, x, rad, h2, q2⟩
      exact ⟨x, rad, (hsubargs j x).2 ⟨h1, h2⟩, q2⟩
  refine key _ (fun j q hq => ((hiff j q).1 hq).2) (fun _ _ _ _ _ h => h) ?_ c hc
  intro j q hq
  rw [decide_eq_true_iff]
  constructor
  · intro hj; exact ⟨q, (hiff j q).2 ⟨hj, hq⟩, rfl⟩
  · rintro ⟨p, hp, rfl⟩; exact ((hiff j p).1 hp).1

theorem setRadius_ok {t t' : ObsTable} {x : ℝ} (h : t.setRadius x = .ok t') : 0 < x ∧ t'.cols = t.cols ∧ t'.invColmap = t.invColmap ∧
    t'.footprint = t.footprint ∧ t'.radius = some x ∧ ∀ key, key ≠ "radius".toList → t'.survey.get? key = t.survey.get? key := by
  unfold ObsTable.setRadius at h
  split at h
  · cases h
  · rename_i hx
    cases h
    refine ⟨not_le.1 hx, rfl, rfl, rfl, ?_, ?_⟩
    · unfold ObsTable.radius
      dsimp only
      rw [Dict.get?_set_self]
    · intro key hk
      exact Dict.get?_set_ne t.survey (SVal.num x) (Ne.symm hk)

/-- The observations of an object with another set of tables, surveys in the same places, rows unchanged. -/
theorem same_rows {ev : PassbandGroup ℝ → List ℝ → List Name → SState ℝ → R → Except Err (List ℝ × R)} {P : PassbandGroup ℝ → SState ℝ → Name → ℝ → ℝ → Prop}
    (hP : OneFlux P) {isBand : Bool} {draw : R → ℝ × R} {states : List SimState} {args args' : List SurveyArg} {saveCols : List Name}
    {offset : Option (List (Option ℝ))} {r r' r1 r1' : R} {res res' : SimResult}
    (hr : Ready ev P states args saveCols) (hr' : Ready ev P states args' saveCols) (hlen : args'.length = args.length)
    (hrel : ∀ (j : Nat) a a', args[j]? = some a → args'[j]? = some a' → a'.kind = a.kind ∧ a'.group = a.group ∧ a'.table.cols = a.table.cols ∧
      a'.table.invColmap = a.table.invColmap ∧ ∀ key, key ≠ "radius".toList → a'.table.survey.get? key = a.table.survey.get? key)
    (h : simulateWith isBand (fun a => ev a.group) draw states args saveCols offset r = .ok (res, r1))
    (h' : simulateWith isBand (fun a => ev a.group) draw states args' saveCols offset r' = .ok (res', r1'))
    {k : Nat} {s : SimState} (hk : states[k]? = some s) (Q : Nat × Nat → ℝ × ℝ → Bool)
    (hQ : ∀ (j : Nat) a a' rad rad' pos q, args[j]? = some a → args'[j]? = some a' → a.table.radius = some rad → a'.table.radius = some rad' →
      (Match a'.table pos rad' (winLo offset s.t0) (winHi offset s.t0) q ↔
        Match a.table pos rad (winLo offset s.t0) (winHi offset s.t0) q ∧ Q (j, q) pos = true)) :
    ∃ ra dec obs, ObservationsOf args offset s ra dec obs ∧ res.nobs[k]? = some obs.length ∧
      ∀ c ∈ perfectCols, lightcurve res'.nested k c = keep (obs.map fun x => Q x (ra, dec)) (lightcurve res.nested k c) := by
  obtain ⟨ra, dec, obs, obs', o1, o2, o3, -, -, -, key⟩ := two_runs (φ := fun _ p => p)
    (n := fun j => (args[j]?.map fun x => x.table.len).getD 0) hP hr hr' h h' (by
      intro j a' ha'
      have hj : j < args'.length := (List.getElem?_eq_some_iff.1 ha').1
      have h1 : args[j]? = some (args[j]'(by omega)) := List.getElem?_eq_getElem _
      obtain ⟨e1, e2, e3, e4, e5⟩ := hrel j _ a' h1 ha'
      refine ⟨_, h1, e1, e2, ?_⟩
      rw [h1]
      exact rowsOf_same (built_spec (hr.2.2.1 _ (List.mem_of_getElem? h1))).1 e3 e4 e5) hk
  have hiff : ∀ j q, (j, q) ∈ obs' ↔ (j, q) ∈ obs ∧ Q (j, q) (ra, dec) = true := by
    intro j q
    rw [o1.2.2.2, o2.2.2.2]
    constructor
    · rintro ⟨a', rad', q1, q2, q3⟩
      have hj : j < args'.length := (List.getElem?_eq_some_iff.1 q1).1
      have h1 : args[j]? = some (args[j]'(by omega)) := List.getElem?_eq_getElem _
      obtain ⟨rad, hrad, -⟩ := hr.2.2.2.1 _ (List.mem_of_getElem? h1)
      obtain ⟨h2, h3⟩ := (hQ j _ a' rad rad' (ra, dec) q h1 q1 hrad q2).1 q3
      exact ⟨⟨_, rad, h1, hrad, h2⟩, h3⟩
    · rintro ⟨⟨a, rad, q1, q2, q3⟩, h3⟩
      have hj : j < args.length := (List.getElem?_eq_some_iff.1 q1).1
      have h1 : args'[j]? = some (args'[j]'(by omega)) := List.getElem?_eq_getElem _
      obtain ⟨rad', hrad', -⟩ := hr'.2.2.2.1 _ (List.mem_of_getElem? h1)
      exact ⟨_, rad', h1, hrad', (hQ j a _ rad rad' (ra, dec) q q1 h1 q2 hrad').2 ⟨q3, h3⟩⟩
  refine ⟨ra, dec, obs, o1, o3, key _ (fun j q hq => ((hiff j q).1 hq).1) (fun _ _ _ _ _ h => h) ?_⟩
  intro j q hq
  constructor
  · intro hm; exact ⟨q, (hiff j q).2 ⟨hq, hm⟩, rfl⟩
  · rintro ⟨p, hp, rfl⟩; exact ((hiff j p).1 hp).2

open Classical in
/-- C133, a smaller search radius in every survey: the lightcurve is the part of the wider one whose pointings lie within the new radius. -/
theorem C133_radius {ev : PassbandGroup ℝ → List ℝ → List Name → SState ℝ → R → Except Err (List ℝ × R)} {P : PassbandGroup ℝ → SState ℝ → Name → ℝ → ℝ → Prop}
    (hP : OneFlux P) {isBand : Bool} {draw : R → ℝ × R} {states : List SimState} {args args' : List SurveyArg} {saveCols : List Name}
    {offset : Option (List (Option ℝ))} {r r' r1 r1' : R} {res res' : SimResult} {radii : List ℝ}
    (hr : Ready ev P states args saveCols) (hlen : args'.length = args.length ∧ radii.length = args.length)
    (hrad : ∀ (j : Nat) a x a', args[j]? = some a → radii[j]? = some x → args'[j]? = some a' →
      (∃ t, a.table.setRadius x = .ok t ∧ a' = withTable a t) ∧ ∀ rad, a.table.radius = some rad → x ≤ rad)
    (h : simulateWith isBand (fun a => ev a.group) draw states args saveCols offset r = .ok (res, r1))
    (h' : simulateWith isBand (fun a => ev a.group) draw states args' saveCols offset r' = .ok (res', r1')) :
    ∀ (k : Nat) (s : SimState), states[k]? = some s → ∃ ra dec obs, ObservationsOf args offset s ra dec obs ∧ res.nobs[k]? = some obs.length ∧
      ∀ c ∈ perfectCols, lightcurve res'.nested k c =
        keep (obs.map fun x => decide (PointsWithin args radii (ra, dec) x)) (lightcurve res.nested k c) := by
  intro k s hk
  have hrel : ∀ (j : Nat) (a' : SurveyArg), args'[j]? = some a' → ∃ (a : SurveyArg) (x : ℝ) (rad : ℝ), args[j]? = some a ∧ radii[j]? = some x ∧
      a.table.radius = some rad ∧ rad ≤ 180 ∧ x ≤ rad ∧ Built a'.table ∧ a'.kind = a.kind ∧ a'.group = a.group ∧ 0 < x ∧ a'.table.cols = a.table.cols ∧
      a'.table.invColmap = a.table.invColmap ∧ a'.table.footprint = a.table.footprint ∧ a'.table.radius = some x ∧
      ∀ key, key ≠ "radius".toList → a'.table.survey.get? key = a.table.survey.get? key := by
    intro j a' ha'
    have hj : j < args'.length := (List.getElem?_eq_some_iff.1 ha').1
    have h1 : args[j]? = some (args[j]'(by omega)) := List.getElem?_eq_getElem _
    have h2 : radii[j]? = some (radii[j]'(by omega)) := List.getElem?_eq_getElem _
    obtain ⟨⟨t, ht, rfl⟩, hle⟩ := hrad j _ _ _ h1 h2 ha'
    obtain ⟨rad, g1, g2, g3⟩ := hr.2.2.2.1 _ (List.mem_of_getElem? h1)
    exact ⟨_, _, rad, h1, h2, g1, g3, hle rad g1, Built.radius (hr.2.2.1 _ (List.mem_of_getElem? h1)) ht, rfl, rfl, setRadius_ok ht⟩
  refine same_rows hP hr ?_ hlen.1 ?_ h h' hk (fun x pos => decide (PointsWithin args radii pos x)) ?_
  · obtain ⟨g1, g2, g3, g4, g5, g6⟩ := hr
    refine ⟨fun e => g1 (List.length_eq_zero_iff.1 (by rw [← hlen.1, e]; rfl)), ?_, ?_, ?_, g5, g6⟩
    · intro s hs a' ha'
      obtain ⟨j, hj⟩ := List.getElem?_of_mem ha'
      obtain ⟨a, x, rad, e1, -, -, -, -, -, -, e4, -⟩ := hrel j a' hj
      rw [e4]
      exact g2 s hs a (List.mem_of_getElem? e1)
    · intro a' ha'
      obtain ⟨j, hj⟩ := List.getElem?_of_mem ha'
      obtain ⟨a, x, rad, e1, -, -, -, -, e3, -⟩ := hrel j a' hj
      exact e3
    · intro a' ha'
      obtain ⟨j, hj⟩ := List.getElem?_of_mem ha'
      obtain ⟨a, x, rad, e1, -, -, e2, e3, -, -, -, e4, -, -, -, e5, -⟩ := hrel j a' hj
      exact ⟨x, e5, e4.le, e3.trans e2⟩
  · intro j a a' ha ha'
    obtain ⟨b, x, rad, e1, -, -, -, -, -, e2, e3, -, e4, e5, -, -, e6⟩ := hrel j a' ha'
    rw [ha] at e1; cases e1
    exact ⟨e2, e3, e4, e5, e6⟩
  · intro j a a' rad rad' pos q ha ha' hrd hrd'
    obtain ⟨b, x, rad0, e1, e1', e2, -, e3, -, -, -, -, e4, e5, e6, e7, -⟩ := hrel j a' ha'
    rw [ha] at e1; cases e1
    rw [hrd] at e2; cases e2
    rw [hrd'] at e7; cases e7
    have hnum : ∀ name, ObsSpec.num a'.table name q = ObsSpec.num a.table name q := by intro name; unfold ObsSpec.num cell; rw [e4]
    have hpi : (0 : ℝ) ≤ Real.pi / 180 := by positivity
    rw [decide_eq_true_iff]
    unfold Match
    rw [hnum, hnum, hnum, hnum, e6]
    constructor
    · rintro ⟨ra', dec', y1, y2, y3, y4⟩
      exact ⟨⟨ra', dec', y1, y2, y3.trans (mul_le_mul_of_nonneg_right e3 hpi), y4⟩, a, rad', ra', dec', ha, e1', y1, y2, y3⟩
    · rintro ⟨⟨ra', dec', y1, y2, y3, y4⟩, a0, x0, ra0, dec0, z1, z2, z3, z4, z5⟩
      have z1 : args[j]? = some a0 := z1
      have z2 : radii[j]? = some x0 := z2
      rw [ha] at z1; cases z1
      rw [e1'] at z2; cases z2
      rw [y1] at z3; cases z3
      rw [y2] at z4; cases z4
      exact ⟨ra', dec', y1, y2, z5, y4⟩

open Classical in
/-- C133, detector footprints: with them, the lightcurve is the part of the one without them whose observations have the object on the detector. -/
theorem C133_footprint {ev : PassbandGroup ℝ → List ℝ → List Name → SState ℝ → R → Except Err (List ℝ × R)} {P : PassbandGroup ℝ → SState ℝ → Name → ℝ → ℝ → Prop}
    (hP : OneFlux P) {isBand : Bool} {draw : R → ℝ × R} {states : List SimState} {args : List SurveyArg} {saveCols : List Name}
    {offset : Option (List (Option ℝ))} {r r' r1 r1' : R} {res res' : SimResult} (hr : Ready ev P states args saveCols)
    (h : simulateWith isBand (fun a => ev a.group) draw states (args.map fun a => withTable a a.table.clearFootprint) saveCols offset r = .ok (res, r1))
    (h' : simulateWith isBand (fun a => ev a.group) draw states args saveCols offset r' = .ok (res', r1')) :
    ∀ (k : Nat) (s : SimState), states[k]? = some s → ∃ ra dec obs,
      ObservationsOf (args.map fun a => withTable a a.table.clearFootprint) offset s ra dec obs ∧ res.nobs[k]? = some obs.length ∧
      ∀ c ∈ perfectCols, lightcurve res'.nested k c = keep (obs.map fun x => decide (OnDetector args (ra, dec) x)) (lightcurve res.nested k c) := by
  intro k s hk
  have hget : ∀ (j : Nat) b, (args.map fun a => withTable a a.table.clearFootprint)[j]? = some b → ∃ a, args[j]? = some a ∧ b = withTable a a.table.clearFootprint := by
    intro j b hb
    rw [List.getElem?_map] at hb
    cases ha : args[j]? with
    | none => rw [ha] at hb; cases hb
    | some a => rw [ha] at hb; exact ⟨a, rfl, (Option.some.inj hb).symm⟩
  refine same_rows hP ?_ hr (by rw [List.length_map]) ?_ h h' hk (fun x pos => decide (OnDetector args pos x)) ?_
  · obtain ⟨g1, g2, g3, g4, g5, g6⟩ := hr
    refine ⟨by simpa using g1, ?_, ?_, ?_, g5, g6⟩
    · intro s hs b hb
      obtain ⟨a, ha, rfl⟩ := List.mem_map.1 hb
      exact g2 s hs a ha
    · intro b hb
      obtain ⟨a, ha, rfl⟩ := List.mem_map.1 hb
      exact Built.clear (g3 a ha)
    · intro b hb
      obtain ⟨a, ha, rfl⟩ := List.mem_map.1 hb
      exact g4 a ha
  · intro j b a hb ha
    obtain ⟨a', ha', rfl⟩ := hget j b hb
    rw [ha] at ha'; cases ha'
    exact ⟨rfl, rfl, rfl, rfl, fun _ _ => rfl⟩
  · intro j b a rad rad' pos q hb ha hrd hrd'
    obtain ⟨a', ha', rfl⟩ := hget j b hb
    rw [ha] at ha'; cases ha'
    have : rad = rad' := by
      have e : (withTable a a.table.clearFootprint).table.radius = a.table.radius := rfl
      rw [e, hrd'] at hrd
      exact (Option.some.inj hrd).symm
    subst this
    rw [decide_eq_true_iff]
    constructor
    · rintro ⟨ra', dec', y1, y2, y3, y4, y5, y6⟩
      exact ⟨⟨ra', dec', y1, y2, y3, y4, y5, fun fp hfp => by cases hfp⟩, a, ra', dec', ha, y1, y2, y6⟩
    · rintro ⟨⟨ra', dec', y1, y2, y3, y4, y5, y6⟩, a0, ra0, dec0, z1, z2, z3, z4⟩
      have z1 : args[j]? = some a0 := z1
      rw [ha] at z1; cases z1
      have y1 : ObsSpec.num a.table "ra".toList q = some ra' := y1
      have y2 : ObsSpec.num a.table "dec".toList q = some dec' := y2
      rw [y1] at z2; cases z2
      rw [y2] at z3; cases z3
      exact ⟨ra', dec', y1, y2, y3, y4, y5, z4⟩

/-! ### SED models, and runs that succeed -/

/-- The band fluxes of a spectrum are determined. -/
theorem oneFlux_band (H : SState ℝ → ℝ → ℝ → ℝ) : OneFlux (fun g st => BandFlux g (H st)) := by
  rintro g st f t x y ⟨pb, h1, rfl⟩ ⟨pb', h2, rfl⟩
  rw [h1] at h2
  cases h2
  rfl

theorem ready_model {V W : Type} {m : SEDModel V W R ℝ} {noKw : W} {states : List SimState} {args : List SurveyArg} {saveCols : List Name} (H : SState ℝ → ℝ → ℝ → ℝ)
    (hne : args ≠ []) (hobs : ∀ s ∈ states, ∀ a ∈ args, ObservesIn m noKw s.state a.group (H s.state))
    (hgrid : ∀ a ∈ args, ∀ f pb, a.group.getItem f = .ok pb → ExactGrid pb) (hbuilt : ∀ a ∈ args, Built a.table) (hrad : ∀ a ∈ args, ∃ rad, a.table.radius = some rad ∧ 0 ≤ rad ∧ rad ≤ 180)
    (hsave : saveCols.Nodup ∧ ∀ c ∈ saveCols, c ∉ baseCols) : Ready (evalModel m noKw) (fun g st => BandFlux g (H st)) states args saveCols :=
  ⟨hne, fun s hs a ha => fluxes_of (hobs s hs a ha) (hgrid a ha), hbuilt, hrad, hsave, fun g ts fs st r p r' h => sized_model m noKw ⟨.opsim, lsstTable, g⟩ ts fs st r p r' h⟩

/-- C133, success: a sound LSST survey stays sound when its rows are filtered, whatever rows are dropped (even all), so the narrower simulation succeeds too. -/
theorem C133_sound {a : SurveyArg} {m : List Bool} {t : ObsTable} (ha : SoundOpsim a) (h : a.table.filterRows (.mask m) = .ok t) : SoundOpsim (withTable a t) := by
  have hb := ha.built
  obtain ⟨hrow, hf, hsv, hl⟩ := rowsOf_filter (built_spec hb).1 h
  obtain ⟨m', hm, h1, -⟩ := filterRows_ok h
  have e : m' = m := by
    simp only [ObsTable.rowMask] at hm
    split at hm
    · cases hm
    · cases hm; rfl
  subst e
  have hg : ∀ name, t.cols.get? name = (a.table.cols.get? name).map (keep m') := by
    intro name
    rw [h1]
    exact get?_mapVals (keep m') a.table.cols name
  have hnum : ∀ name, (∃ c : List ℝ, a.table.cols.get? name = some (c.map .num)) → ∃ c : List ℝ, t.cols.get? name = some (c.map .num) := by
    rintro name ⟨c, hc⟩
    exact ⟨keep m' c, by rw [hg, hc, Option.map_some, keep_map]⟩
  have hpos : ∀ (name : Name) (Q : ℝ → Prop), (∀ q x, PhotSpec.rowNum a.table name q = some x → Q x) → ∀ q x, PhotSpec.rowNum t name q = some x → Q x := by
    intro name Q hQ q x hx
    have hq : q < (keep m' (List.range m'.length)).length := by
      unfold PhotSpec.rowNum at hx
      cases hc : cell t name q with
      | none => unfold cell at hc; rw [hc] at hx; cases hx
      | some c => exact hrow.bound _ _ _ hc
    rw [hrow.rowNum _ hq] at hx
    exact hQ _ _ hx
  refine ⟨ha.kind, Built.filter hb h, ?_, hnum _ ha.time, ?_, ?_, fun name hn => hnum _ (ha.cols name hn), hpos _ _ ha.zp, hpos _ _ ha.exptime, hpos _ _ ha.nexposure, ?_, ?_, ?_⟩
  · have : (withTable a t).table.radius = a.table.radius := by show t.radius = _; unfold ObsTable.radius; rw [hsv]
    rw [this]
    exact ha.radius
  · obtain ⟨fs, hfs, hp⟩ := ha.filter
    refine ⟨keep m' fs, ?_, fun f hf => hp f (mem_of_keep _ _ _ hf)⟩
    show t.cols.get? _ = _
    rw [hg, hfs, Option.map_some, keep_map]
  · rcases ha.rotation with h2 | h2
    · left
      show t.cols.has _ = _
      unfold Dict.has at h2 ⊢
      rw [hg]
      cases hc : a.table.cols.get? "rotation".toList with
      | none => rfl
      | some c => rw [hc] at h2; cases h2
    · exact Or.inr (hnum _ h2)
  · show ∃ x, t.survey.get? _ = _; rw [hsv]; exact ha.scale
  · show ∃ x, t.survey.get? _ = _; rw [hsv]; exact ha.readNoise
  · show ∃ x, t.survey.get? _ = _ ∧ _; rw [hsv]; exact ha.dark

theorem lsst_dropped : ∃ t, lsstTable.filterRows (.mask [false]) = .ok t := ⟨_, rfl⟩

/-- C133: the hypotheses are met. Two objects in two surveys, all rows of the second survey dropped: both simulations succeed, and the second gives what is left of the
first. -/
theorem C133_example (draw : Nat → ℝ × Nat) : ∃ t res res' r1 r1', lsstTable.filterRows (.mask [false]) = .ok t ∧
    simulate constModel () draw [constState 0, constState 90] [lsstArg, lsstArg] [] none 4 = .ok (res, r1) ∧
    simulate constModel () draw [constState 0, constState 90] [lsstArg, withTable lsstArg t] [] none 4 = .ok (res', r1') ∧
    ∃ ra dec obs, ObservationsOf [lsstArg, lsstArg] none (constState 0) ra dec obs ∧
      ∀ c ∈ perfectCols, lightcurve res'.nested 0 c = keep (obs.map fun x => decide (x = (0, 0))) (lightcurve res.nested 0 c) := by
  obtain ⟨t, ht⟩ := lsst_dropped
  have hobs : ∀ s ∈ [constState 0, constState 90], Observes constModel () s.state (fun _ _ => 10) := by
    intro s hs; simp only [List.mem_cons, List.not_mem_nil, or_false] at hs; rcases hs with rfl | rfl <;> exact const_observes _
  have harg : ∀ a ∈ [lsstArg, lsstArg], a = lsstArg := by intro a ha; simpa using ha
  have hs1 : SoundOpsim (withTable lsstArg t) := C133_sound lsst_sound ht
  have hat : ∀ s ∈ [constState 0, constState 90], ∃ ra dec, s.ra = some ra ∧ s.dec = some dec := by
    intro s hs; simp only [List.mem_cons, List.not_mem_nil, or_false] at hs; rcases hs with rfl | rfl <;> exact ⟨_, _, rfl, rfl⟩
  obtain ⟨res, r1, h⟩ := C110_succeeds (m := constModel) (noKw := ()) draw (states := [constState 0, constState 90]) (args := [lsstArg, lsstArg])
    (offset := none) (fun _ _ _ => 10) (by simp) (fun s hs a _ => observes_in (hobs s hs) a.group) (by intros; norm_num)
    (by intro a ha; rw [harg a ha]; exact gGroup_grid) (by intro a ha; rw [harg a ha]; exact lsst_sound) hat (Or.inl rfl) 4
  obtain ⟨res', r1', h'⟩ := C110_succeeds (m := constModel) (noKw := ()) draw (states := [constState 0, constState 90]) (args := [lsstArg, withTable lsstArg t])
    (offset := none) (fun _ _ _ => 10) (by simp) (fun s hs a _ => observes_in (hobs s hs) a.group) (by intros; norm_num)
    (by intro a ha; simp only [List.mem_cons, List.not_mem_nil, or_false] at ha; rcases ha with rfl | rfl <;> exact gGroup_grid)
    (by intro a ha; simp only [List.mem_cons, List.not_mem_nil, or_false] at ha; rcases ha with rfl | rfl; exacts [lsst_sound, hs1]) hat (Or.inl rfl) 4
  refine ⟨t, res, res', r1, r1', ht, h, h', ?_⟩
  have hr : Ready (evalModel constModel ()) (fun g st => BandFlux g ((fun _ _ _ => 10) st)) [constState 0, constState 90] [lsstArg, lsstArg] [] :=
    ready_model (fun _ _ _ => 10) (by simp) (fun s hs a _ => observes_in (hobs s hs) a.group) (by intro a ha; rw [harg a ha]; exact gGroup_grid)
      (by intro a ha; rw [harg a ha]; exact lsst_built) (by intro a ha; rw [harg a ha]; exact ⟨1, rfl, by norm_num, by norm_num⟩) (by simp)
  have hsame : lsstTable.filterRows (.mask [true]) = .ok lsstTable := rfl
  obtain ⟨ra, dec, obs, o1, -, key⟩ := C133_filter (masks := [[true], [false]]) (args' := [lsstArg, withTable lsstArg t]) (oneFlux_band _) hr ⟨rfl, rfl⟩ (by
    intro j a m a' ha hm ha'
    match j with
    | 0 => cases ha; cases hm; cases ha'; exact ⟨lsstTable, hsame, rfl⟩
    | 1 => cases ha; cases hm; cases ha'; exact ⟨t, ht, rfl⟩
    | j + 2 => cases ha) h h' 0 (constState 0) rfl
  refine ⟨ra, dec, obs, o1, ?_⟩
  intro c hc
  rw [key c hc]
  congr 1
  refine List.map_congr_left ?_
  rintro ⟨j, q⟩ _
  match j, q with
  | 0, 0 => rfl
  | 0, q + 1 => simp
  | 1, 0 => rfl
  | 1, q + 1 => simp
  | j + 2, q => simp

end LCL.NarrowProps
