import Verif.Props.BasicModels
import Mathlib.Analysis.Real.Pi.Bounds

/-!
# Properties C83-C85: static, galaxy and spline models
-/

namespace LCL.BasicProps
open LCL LCL.PhysSpec LCL.PhysicalProps
variable {K : Type} [Field K] [LinearOrder K] [IsStrictOrderedRing K] {V R : Type}

/-! ## C83: static spectra and static bandfluxes -/

theorem diffsPositive_iff : ∀ l : List K, diffsPositive l = true ↔ l.Pairwise (· < ·)
  | [] => by simp [diffsPositive]
  | [a] => by simp [diffsPositive]
  | a :: b :: l => by
    rw [diffsPositive, Bool.and_eq_true, decide_eq_true_eq, diffsPositive_iff (b :: l), sub_pos]
    constructor
    · rintro ⟨h1, h2⟩
      refine List.pairwise_cons.2 ⟨?_, h2⟩
      intro x hx
      rcases List.mem_cons.1 hx with rfl | hx
      · exact h1
      · exact h1.trans ((List.pairwise_cons.1 h2).1 x hx)
    · intro h
      obtain ⟨h1, h2⟩ := List.pairwise_cons.1 h
      exact ⟨h1 b (by simp), h2⟩

/-- A valid table: at least two wavelengths, in increasing order. -/
def ValidTable (t : SedTable K) : Prop := 2 ≤ t.waves.length ∧ t.waves.Pairwise (· < ·)

theorem check_iff (a : SedArray K) (t : SedTable K) : a.check = .ok t ↔ a = .mat [t.waves, t.fluxes] ∧ ValidTable t := by
  constructor
  · intro h
    unfold SedArray.check at h
    split at h
    · split at h
      · cases h
      · split at h
        · cases h
          rename_i h1 h2
          exact ⟨rfl, not_lt.1 h1, (diffsPositive_iff _).1 h2⟩
        · cases h
    · cases h
  · rintro ⟨rfl, h1, h2⟩
    unfold SedArray.check
    dsimp only
    rw [if_neg (not_lt.2 h1), if_pos ((diffsPositive_iff _).2 h2)]

theorem check_error (a : SedArray K) : (∃ t, a.check = .ok t) ∨ a.check = .error .valueError := by
  unfold SedArray.check
  split
  · split
    · right; rfl
    · split
      · left; exact ⟨_, rfl⟩
      · right; rfl
  · right; rfl

theorem checkTables_iff (l : List (SedArray K)) (ts : List (SedTable K)) :
    checkTables l = .ok ts ↔ l = ts.map (fun t => .mat [t.waves, t.fluxes]) ∧ ∀ t ∈ ts, ValidTable t := by
  induction l generalizing ts with
  | nil =>
    unfold checkTables
    constructor
    · intro h; injection h with h; subst h; simp
    · rintro ⟨h, _⟩
      rw [List.map_eq_nil_iff.1 h.symm]
  | cons a l ih =>
    unfold checkTables
    constructor
    · intro h
      cases hc : a.check with
      | error e => rw [hc] at h; cases h
      | ok t =>
        rw [hc] at h
        dsimp only at h
        cases hr : checkTables l with
        | error e => rw [hr] at h; cases h
        | ok ts' =>
          rw [hr] at h
          injection h with h
          subst h
          obtain ⟨h1, h2⟩ := (check_iff a t).1 hc
          obtain ⟨h3, h4⟩ := (ih ts').1 hr
          refine ⟨by rw [List.map_cons, ← h3, h1], ?_⟩
          intro t' ht'
          rcases List.mem_cons.1 ht' with rfl | ht'
          · exact h2
          · exact h4 t' ht'
    · rintro ⟨h1, h2⟩
      cases ts with
      | nil => cases h1
      | cons t ts =>
        rw [List.map_cons] at h1
        injection h1 with h1 h3
        rw [(check_iff a t).2 ⟨h1, h2 t (by simp)⟩]
        dsimp only
        rw [(ih ts).2 ⟨h3, fun t' h' => h2 t' (by simp [h'])⟩]

theorem checkTables_error (l : List (SedArray K)) : (∃ ts, checkTables l = .ok ts) ∨ checkTables l = .error .valueError := by
  induction l with
  | nil => left; exact ⟨[], rfl⟩
  | cons a l ih =>
    unfold checkTables
    rcases check_error a with ⟨t, h⟩ | h
    · rw [h]; dsimp only
      rcases ih with ⟨ts, h⟩ | h
      · rw [h]; left; exact ⟨_, rfl⟩
      · rw [h]; right; rfl
    · rw [h]; right; rfl

/-- C83, what holds of the constructor. A list of two-row arrays is accepted exactly when it is not empty and every array has at
least two wavelengths in increasing order, and kept as it is; a single two-row array counts as a list of one; everything else raises
ValueError. What is missing: a three-dimensional array of such tables, accepted for other numbers of tables, is rejected if it holds
exactly two of them (`C83_two_counterexample`). -/
theorem C83_init_partial (ts : List (SedTable K)) (arg : SedArg K) :
    (staticSedInit (.list (ts.map fun t => .mat [t.waves, t.fluxes])) = .ok ts ↔ ts ≠ [] ∧ ∀ t ∈ ts, ValidTable t) ∧
    (∀ t : SedTable K, staticSedInit (.array (.mat [t.waves, t.fluxes])) = .ok [t] ↔ ValidTable t) ∧
    (ts.length ≠ 2 → (staticSedInit (.array (.cube (ts.map fun t => [t.waves, t.fluxes]))) = .ok ts ↔ ts ≠ [] ∧ ∀ t ∈ ts, ValidTable t)) ∧
    ((∃ ts, staticSedInit arg = .ok ts ∧ ts ≠ [] ∧ ∀ t ∈ ts, ValidTable t) ∨ staticSedInit arg = .error .valueError) := by
  have core : ∀ (arg : SedArg K) (ts : List (SedTable K)), staticSedInit arg = .ok ts ↔ ts ≠ [] ∧ checkTables arg.entries = .ok ts := by
    intro arg ts
    unfold staticSedInit
    cases h : checkTables arg.entries with
    | error e => simp
    | ok l =>
      cases l with
      | nil =>
        constructor
        · intro h; cases h
        · rintro ⟨h1, h2⟩; injection h2 with h2; exact absurd h2.symm h1
      | cons t l =>
        constructor
        · intro h; injection h with h; subst h; exact ⟨by simp, rfl⟩
        · rintro ⟨_, h⟩; exact h
  refine ⟨?_, ?_, ?_, ?_⟩
  · rw [core, checkTables_iff]
    simp [SedArg.entries]
  · intro t
    rw [core, checkTables_iff]
    simp [SedArg.entries, SedArray.len]
  · intro hl
    rw [core, checkTables_iff]
    simp [SedArg.entries, SedArray.len, SedArray.items, hl]
  · rcases checkTables_error arg.entries with ⟨ts, h⟩ | h
    · by_cases hn : ts = []
      · right
        subst hn
        unfold staticSedInit
        rw [h]
      · left
        exact ⟨ts, (core arg ts).2 ⟨hn, h⟩, hn, ((checkTables_iff _ _).1 h).2⟩
    · right
      unfold staticSedInit
      rw [h]

/-- C83 fails: an array of exactly two tables is rejected, whatever the tables. -/
theorem C83_two_counterexample (s t : SedTable K) :
    staticSedInit (.array (.cube [[s.waves, s.fluxes], [t.waves, t.fluxes]])) = .error .valueError := rfl

/-- a table that meets the hypotheses: three increasing wavelengths -/
example : ValidTable (⟨[1, 2, 4], [5, 6, 5]⟩ : SedTable ℚ) := ⟨by decide, by decide +kernel⟩

omit [IsStrictOrderedRing K] in
theorem find_range [CharZero K] (n i : Nat) (hi : i < n) : (List.range n).find? (fun (j : Nat) => decide ((j : K) = (i : K))) = some i := by
  have : (fun (j : Nat) => decide ((j : K) = (i : K))) = fun j => decide (j = i) := by
    funext j
    simp
  rw [this]
  rw [List.find?_eq_some_iff_append]
  refine ⟨by simp, List.range i, List.range' (i + 1) (n - i - 1), ?_, ?_⟩
  · rw [List.range_eq_range', List.range_eq_range']
    have : n = i + (1 + (n - i - 1)) := by omega
    conv_lhs => rw [this, ← List.range'_append_1]
    rw [Nat.zero_add, Nat.add_comm 1, List.range'_succ]
  · intro a ha
    have := List.mem_range.1 ha
    simp; omega

theorem selected {st : SState K} {p : Params K} {node : Name} {n i : Nat} (hp : st.get? node = some p) (hi : i < n)
    (hx : p.get? "selected_idx".toList = some (.num (i : K))) : selectedIdx st node n = .ok i := by
  unfold selectedIdx localParams
  rw [hp]
  dsimp only
  rw [num_of hx]
  dsimp only
  rw [find_range n i hi]

/-- The value of a table at a wavelength: piecewise linear inside, zero outside. -/
noncomputable def tableAt (t : SedTable K) (w : K) : K := npInterp t.waves t.fluxes 0 0 w

/-- C83. The value of a table: the tabulated flux at a tabulated wavelength, between the bounds of the fluxes anywhere inside, zero
outside. -/
theorem C83_table {t : SedTable K} (ht : ValidTable t) (hl : t.fluxes.length = t.waves.length) :
    (∀ (k : Nat) x y, t.waves[k]? = some x → t.fluxes[k]? = some y → tableAt t x = y) ∧
    (∀ w lo hi, (∀ y ∈ t.fluxes, lo ≤ y ∧ y ≤ hi) → (∃ a ∈ t.waves, a ≤ w) → (∃ b ∈ t.waves, w ≤ b) → lo ≤ tableAt t w ∧ tableAt t w ≤ hi) ∧
    (∀ w, (∀ a ∈ t.waves, w < a) → tableAt t w = 0) ∧ (∀ w, (∀ a ∈ t.waves, a < w) → tableAt t w = 0) := by
  obtain ⟨waves, fluxes⟩ := t
  obtain ⟨h2, hs⟩ := ht
  dsimp only at *
  cases waves with
  | nil => simp at h2
  | cons a ws =>
    obtain ⟨b, hb⟩ : ∃ b, (a :: ws).getLast? = some b := ⟨_, List.getLast?_eq_some_getLast (by simp)⟩
    have hbm : b ∈ a :: ws := List.mem_of_getLast? hb
    have hmin : ∀ x ∈ a :: ws, a ≤ x := by
      intro x hx
      rcases List.mem_cons.1 hx with rfl | hx
      · exact le_rfl
      · exact ((List.pairwise_cons.1 hs).1 x hx).le
    have hmax : ∀ x ∈ a :: ws, x ≤ b := by
      have hdec : a :: ws = (a :: ws).dropLast ++ [b] := by
        have := List.dropLast_append_getLast? b (by rw [hb]; rfl)
        exact this.symm
      intro x hx
      rw [hdec] at hx hs
      rcases List.mem_append.1 hx with hx | hx
      · exact ((List.pairwise_append.1 hs).2.2 x hx b (by simp)).le
      · exact (List.mem_singleton.1 hx).le
    have key : ∀ w, tableAt ⟨a :: ws, fluxes⟩ w = if w < a then 0 else if b < w then 0 else interpAt (a :: ws) fluxes w := by
      intro w
      unfold tableAt npInterp
      rw [hb]
      rfl
    have hne : fluxes ≠ [] := by
      intro h; rw [h] at hl; simp at hl
    refine ⟨?_, ?_, ?_, ?_⟩
    · intro k x y hx hy
      have hxm := List.mem_of_getElem? hx
      rw [key, if_neg (not_lt.2 (hmin x hxm)), if_neg (not_lt.2 (hmax x hxm))]
      exact interpAt_knot _ _ k x y hl.symm hs hx hy
    · rintro w lo hi hy ⟨x, hx, hxw⟩ ⟨x', hx', hxw'⟩
      have h1 : a ≤ w := (hmin x hx).trans hxw
      have h2 : w ≤ b := hxw'.trans (hmax x' hx')
      rw [key, if_neg (not_lt.2 h1), if_neg (not_lt.2 h2)]
      exact interpAt_bounds _ _ w hl.symm hne (by intro x hx; injection hx with hx; subst hx; exact h1) hy
    · intro w hw
      rw [key, if_pos (hw a (by simp))]
    · intro w hw
      rw [key]
      split
      · rfl
      · rw [if_pos (hw b hbm)]

/-- C83. Evaluating a static spectrum without keyword arguments: at every time, 1+z times the selected table at the rest-frame
wavelength. -/
theorem C83_evaluate {st : SState K} {p : Params K} {node : Name} {tables : List (SedTable K)} {t : SedTable K} {i : Nat} {z t0 : K}
    (hv : ∀ t ∈ tables, ValidTable t) (hp : st.get? node = some p) (hi : tables[i]? = some t)
    (hx : p.get? "selected_idx".toList = some (.num (i : K))) (hz1 : z ≠ -1) (hz : p.get? redshiftKey = some (.num z))
    (ht : z ≠ 0 → p.get? t0Key = some (.num t0)) {waves : List K} (hne : waves ≠ []) (times : List K) (r : R) :
    (staticSedModel node tables : SEDModel V (Kw K) R K).evaluateSingle Kw.empty times waves st r Kw.empty =
      .ok (times.map (fun _ => waves.map fun w => (1 + z) * tableAt t (w / (1 + z))), r) := by
  have hil : i < tables.length := by
    by_contra hc
    rw [List.getElem?_eq_none (not_lt.1 hc)] at hi
    cases hi
  have hsel := selected hp hil hx
  have hval := hv t (List.mem_of_getElem? hi)
  -- a model that agrees with the static one but ignores its keyword arguments
  let m : SEDModel V (Kw K) R K := staticSedModel node tables
  let m' : SEDModel V (Kw K) R K := { m with computeSed := fun _ st times waves => m.computeSed Kw.empty st times waves }
  have hcomp : ∀ kw times waves, m'.computeSed kw st times waves = .ok (times.map fun _ => waves.map fun w => tableAt t w) := by
    intro kw times waves
    show (staticSedModel node tables : SEDModel V (Kw K) R K).computeSed Kw.empty st times waves = _
    unfold staticSedModel Kw.empty
    dsimp only
    rw [if_neg (by simp), hsel]
    dsimp only
    rw [hi]
    rfl
  have hmin : m'.minwave st = t.waves.head? := by
    show (match selectedIdx st node tables.length with | .ok i => (tables[i]?).bind fun t => t.waves.head? | .error _ => none) = _
    rw [hsel]
    dsimp only
    rw [hi]
    rfl
  have hmax : m'.maxwave st = t.waves.getLast? := by
    show (match selectedIdx st node tables.length with | .ok i => (tables[i]?).bind fun t => t.waves.getLast? | .error _ => none) = _
    rw [hsel]
    dsimp only
    rw [hi]
    rfl
  have hsame : m.evaluateSingle Kw.empty times waves st r Kw.empty = m'.evaluateSingle Kw.empty times waves st r Kw.empty := by
    unfold SEDModel.evaluateSingle SEDModel.sedExtrapolated SEDModel.extrapolated
    rfl
  show m.evaluateSingle Kw.empty times waves st r Kw.empty = _
  rw [hsame]
  rw [C32_evaluate m' ⟨rfl, rfl⟩ Kw.empty Kw.empty times waves st r p z t0 (fun _ w => tableAt t w) (fun _ _ _ => 0) hz1
    (fun kw times waves => hcomp kw times waves) (Or.inl ⟨rfl, rfl⟩) ?_ hne hp rfl hz ht, hmin, hmax]
  · congr 2
    refine List.map_congr_left fun _ _ => List.map_congr_left fun w _ => ?_
    congr 1
    obtain ⟨waves, fluxes⟩ := t
    obtain ⟨h2, hs⟩ := hval
    dsimp only at *
    cases waves with
    | nil => simp at h2
    | cons a ws =>
      obtain ⟨b, hb⟩ : ∃ b, (a :: ws).getLast? = some b := ⟨_, List.getLast?_eq_some_getLast (by simp)⟩
      rw [hb]
      unfold stretch tableAt npInterp
      rw [hb]
      simp only [List.head?_cons, Option.filter]
      by_cases h1 : w / (1 + z) < a
      · simp [h1]
      · by_cases h2 : b < w / (1 + z)
        · simp [h1, h2]
        · simp [h1, h2]
  · intro l h hl hh
    rw [hmin] at hl
    rw [hmax] at hh
    have hlm : l ∈ t.waves := List.mem_of_head? hl
    have hhm : h ∈ t.waves := List.mem_of_getLast? hh
    cases hw : t.waves with
    | nil => rw [hw] at hlm; cases hlm
    | cons a ws =>
      rw [hw] at hl hhm
      injection hl with hl
      subst hl
      rcases List.mem_cons.1 hhm with rfl | hm
      · exact le_rfl
      · have := hval.2
        rw [hw] at this
        exact ((List.pairwise_cons.1 this).1 h hm).le

/-- C83 fails: the other models ignore keyword arguments they do not know, such as the position of the observation. A static
spectrum, asked within its wavelength range, raises TypeError. -/
theorem C83_keyword_counterexample :
    (staticSedModel "m".toList [⟨[1, 2], [5, 5]⟩] : SEDModel Unit (Kw ℚ) Unit ℚ).evaluateSingle Kw.empty [0] [1, 2]
      [("m".toList, [("redshift".toList, .num 0), ("selected_idx".toList, .num 0)])] () ⟨some 10, some 20, false⟩ = .error .typeError ∧
    ∃ out, (constantModel "m".toList : SEDModel Unit (Kw ℚ) Unit ℚ).evaluateSingle Kw.empty [0] [1, 2]
      [("m".toList, [("redshift".toList, .num 0), ("brightness".toList, .num 0)])] () ⟨some 10, some 20, false⟩ = .ok out := by
  constructor
  · rfl
  · exact ⟨_, rfl⟩

omit [Field K] [IsStrictOrderedRing K] in
theorem fill_spec (values : Dict Name K) (filters : List Name) : ∀ (fs : List Name) (out : List K), out.length = filters.length →
    (∀ f ∈ fs, ∃ v, values.get? f = some v) →
    ∃ res, fillBands values filters fs out = .ok res ∧ res.length = filters.length ∧
      (∀ (j : Nat) f, filters[j]? = some f → f ∈ fs → ∀ v, values.get? f = some v → res[j]? = some v) ∧
      (∀ (j : Nat) f, filters[j]? = some f → f ∉ fs → res[j]? = out[j]?) := by
  intro fs
  induction fs with
  | nil => intro out hl _; exact ⟨out, rfl, hl, by simp, by simp⟩
  | cons f fs ih =>
    intro out hl hk
    obtain ⟨v, hv⟩ := hk f (by simp)
    unfold fillBands
    rw [hv]
    dsimp only
    obtain ⟨res, h1, h2, h3, h4⟩ := ih (List.zipWith (fun g x => if g = f then v else x) filters out) (by simp [hl]) (fun g hg => hk g (by simp [hg]))
    refine ⟨res, h1, h2, ?_, ?_⟩
    · intro j g hg hmem w hw
      by_cases hin : g ∈ fs
      · exact h3 j g hg hin w hw
      · rcases List.mem_cons.1 hmem with rfl | hm
        · rw [h4 j g hg hin, List.getElem?_zipWith, hg]
          have hj : j < out.length := by
            rw [hl]
            by_contra hc
            rw [List.getElem?_eq_none (not_lt.1 hc)] at hg
            cases hg
          rw [List.getElem?_eq_getElem hj]
          dsimp only
          rw [if_pos rfl]
          rw [hv] at hw
          exact hw
        · exact absurd hm hin
    · intro j g hg hnm
      rw [List.mem_cons, not_or] at hnm
      rw [h4 j g hg hnm.2, List.getElem?_zipWith, hg]
      cases out[j]? with
      | none => rfl
      | some x => dsimp only; rw [if_neg hnm.1]

omit [Field K] [IsStrictOrderedRing K] in
theorem fill_missing (values : Dict Name K) (filters : List Name) : ∀ (fs : List Name) (out : List K) (f : Name), f ∈ fs → values.get? f = none →
    fillBands values filters fs out = .error .keyError := by
  intro fs
  induction fs with
  | nil => intro out f hf; cases hf
  | cons g fs ih =>
    intro out f hf hv
    unfold fillBands
    cases hg : values.get? g with
    | none => rfl
    | some v =>
      dsimp only
      rcases List.mem_cons.1 hf with rfl | hf
      · rw [hv] at hg; cases hg
      · exact ih _ f hf hv

/-- C83. A static bandflux model gives at every time the value of the selected mapping for that time's filter; a filter that the
mapping does not have raises KeyError. -/
theorem C83_bandflux {st : SState K} {p : Params K} {node : Name} {bands : List (Dict Name K)} {values : Dict Name K} {i : Nat}
    (hp : st.get? node = some p) (hi : bands[i]? = some values) (hx : p.get? "selected_idx".toList = some (.num (i : K)))
    {times : List K} {filters : List Name} (hl : filters.length = times.length) (r : R) :
    ((∀ f ∈ filters, ∃ v, values.get? f = some v) →
      ∃ out, (staticBandModel node bands : BandModel V R K).evaluateBandfluxesSingle times filters st r = .ok (out, r) ∧
        out.length = times.length ∧ ∀ (j : Nat) f v, filters[j]? = some f → values.get? f = some v → out[j]? = some v) ∧
    ((∃ f ∈ filters, values.get? f = none) →
      (staticBandModel node bands : BandModel V R K).evaluateBandfluxesSingle times filters st r = .error .keyError) := by
  have hil : i < bands.length := by
    by_contra hc
    rw [List.getElem?_eq_none (not_lt.1 hc)] at hi
    cases hi
  have hsel := selected hp hil hx
  have hmem : ∀ f, f ∈ npUnique filters ↔ f ∈ filters := fun f => BandfluxProps.mem_npUnique _ _
  constructor
  · intro hk
    obtain ⟨res, h1, h2, h3, _⟩ := fill_spec values filters (npUnique filters) (times.map fun _ => 0) (by simp [hl]) (fun f hf => hk f ((hmem f).1 hf))
    refine ⟨res, ?_, by rw [h2, hl], ?_⟩
    · unfold BandModel.evaluateBandfluxesSingle localParams staticBandModel
      dsimp only
      rw [hp]
      dsimp only
      rw [hsel]
      dsimp only
      rw [hi]
      dsimp only
      rw [h1]
      rfl
    · intro j f v hf hv
      exact h3 j f hf ((hmem f).2 (List.mem_of_getElem? hf)) v hv
  · rintro ⟨f, hf, hv⟩
    unfold BandModel.evaluateBandfluxesSingle localParams staticBandModel
    dsimp only
    rw [hp]
    dsimp only
    rw [hsel]
    dsimp only
    rw [hi]
    dsimp only
    rw [fill_missing values filters _ _ f ((hmem f).2 hf) hv]

/-! ## C84: a Gaussian galaxy -/

/-- The angle between two directions given in degrees, in degrees (law of cosines on the sphere). -/
noncomputable def degreesBetween (ra dec ra' dec' : ℝ) : ℝ :=
  180 / Real.pi * Real.arccos (Real.sin (dec * Real.pi / 180) * Real.sin (dec' * Real.pi / 180) +
    Real.cos (dec * Real.pi / 180) * Real.cos (dec' * Real.pi / 180) * Real.cos ((ra' - ra) * Real.pi / 180))

theorem dist_eq {p : Params ℝ} {ra0 dec0 ra dec : ℝ} (hr : p.get? "ra".toList = some (.num ra0)) (hd : p.get? "dec".toList = some (.num dec0)) :
    galaxyDist ⟨some ra, some dec, o⟩ p = .ok (Real.pi / 180 * degreesBetween ra0 dec0 ra dec) := by
  unfold galaxyDist
  dsimp only
  rw [num_of hr]; dsimp only
  rw [num_of hd]
  dsimp only
  congr 1
  unfold angularSeparation degreesBetween
  have := Real.pi_pos.ne'
  rw [← mul_assoc, show Real.pi / 180 * (180 / Real.pi) = 1 by field_simp, one_mul]
  congr 4
  ring

/-- C84, what holds: the flux of the galaxy in a direction is the brightness at the centre times a Gaussian of the angle from the
centre, the same at all times and wavelengths; without a direction it is the brightness of the centre. What is missing: the
standard deviation is documented in degrees, but it is compared with the angle in radians (`C84_units_counterexample`). -/
theorem C84_profile_partial {st : SState ℝ} {p : Params ℝ} {node : Name} {z t0 b std ra0 dec0 : ℝ} (hp : st.get? node = some p) (hz1 : z ≠ -1)
    (hz : p.get? redshiftKey = some (.num z)) (ht : p.get? t0Key = some (.num t0)) (hb : p.get? "brightness".toList = some (.num b))
    (hs : p.get? "galaxy_radius_std".toList = some (.num std)) (hr : p.get? "ra".toList = some (.num ra0)) (hd : p.get? "dec".toList = some (.num dec0))
    {waves : List ℝ} (hne : waves ≠ []) (times : List ℝ) (r : R) (o : Bool) :
    (∀ ra dec : ℝ, (galaxyModel node : SEDModel V (Kw ℝ) R ℝ).evaluateSingle Kw.empty times waves st r ⟨some ra, some dec, o⟩ =
      .ok (times.map (fun _ => waves.map fun _ =>
        (1 + z) * (b * Real.exp (-(Real.pi / 180 * degreesBetween ra0 dec0 ra dec) ^ 2 / (2 * std ^ 2)))), r)) ∧
    (galaxyModel node : SEDModel V (Kw ℝ) R ℝ).evaluateSingle Kw.empty times waves st r ⟨none, none, o⟩ =
      .ok (times.map (fun _ => waves.map fun _ => (1 + z) * b), r) := by
  have key : ∀ (kw : Kw ℝ) (dist : ℝ), galaxyDist kw p = .ok dist →
      (galaxyModel node : SEDModel V (Kw ℝ) R ℝ).evaluateSingle Kw.empty times waves st r kw =
      .ok (times.map (fun _ => waves.map fun _ => (1 + z) * (b * Real.exp (-(dist * dist) / (2 * std * std)))), r) := by
    intro kw dist hdist
    let m : SEDModel V (Kw ℝ) R ℝ := galaxyModel node
    let m' : SEDModel V (Kw ℝ) R ℝ := plainSed node (fun _ => galaxySed kw) none none
    have hsame : m.evaluateSingle Kw.empty times waves st r kw = m'.evaluateSingle kw times waves st r kw := by
      unfold SEDModel.evaluateSingle
      have e : ∀ ts ws, m.sedExtrapolated Kw.empty ts ws st kw = m'.sedExtrapolated kw ts ws st kw := by
        intro ts ws
        unfold SEDModel.sedExtrapolated
        cases ws with
        | nil => rfl
        | cons w ws =>
          dsimp only [npMin, npMax]
          show (if (ws.foldl min w ≤ ws.foldl min w ∧ ws.foldl max w ≤ ws.foldl max w) then m.computeSed kw st ts (w :: ws) else _) =
            (if (ws.foldl min w ≤ ws.foldl min w ∧ ws.foldl max w ≤ ws.foldl max w) then m'.computeSed kw st ts (w :: ws) else _)
          rw [if_pos ⟨le_rfl, le_rfl⟩, if_pos ⟨le_rfl, le_rfl⟩]
          rfl
      simp only [e]
      rfl
    show m.evaluateSingle Kw.empty times waves st r kw = _
    rw [hsame]
    have hc : ∀ kw' times waves, (fun _ => galaxySed kw : Kw ℝ → Params ℝ → List ℝ → List ℝ → Except Err (Mat ℝ)) kw' p times waves =
        .ok (times.map fun t => waves.map ((fun _ _ => b * Real.exp (-(dist * dist) / (2 * std * std)) : ℝ → ℝ → ℝ) t)) := by
      intro _ times waves
      dsimp only
      unfold galaxySed
      rw [hdist]; dsimp only
      rw [num_of hs]; dsimp only
      rw [num_of hb]
    rw [C32_evaluate m' ⟨rfl, rfl⟩ kw kw times waves st r p z t0 _ (fun _ _ _ => 0) hz1
      (plain_pointwise hp hc) (Or.inl ⟨rfl, rfl⟩) (by intro l h h1; cases h1) hne hp rfl hz (fun _ => ht)]
    rfl
  constructor
  · intro ra dec
    rw [key _ _ (dist_eq hr hd)]
    congr 2
    refine List.map_congr_left fun _ _ => List.map_congr_left fun _ _ => ?_
    rw [sq, sq, mul_assoc 2 std std]
  · rw [key ⟨none, none, o⟩ 0 rfl]
    simp

/-- C84 fails: one standard deviation north of the centre (given in degrees) the galaxy should have faded by the factor
`exp (-1/2)`; it has faded by less than two parts in ten thousand. -/
theorem C84_units_counterexample {ra dec std : ℝ} (h0 : 0 < std) (h1 : std ≤ 90) :
    degreesBetween ra dec ra (dec + std) = std ∧
    Real.exp (-(1 : ℝ) / 2) < 0.9 ∧
    0.9998 < Real.exp (-(Real.pi / 180 * degreesBetween ra dec ra (dec + std)) ^ 2 / (2 * std ^ 2)) := by
  have hd : degreesBetween ra dec ra (dec + std) = std := by
    unfold degreesBetween
    rw [sub_self, zero_mul, zero_div, Real.cos_zero, mul_one]
    have : Real.sin (dec * Real.pi / 180) * Real.sin ((dec + std) * Real.pi / 180) +
        Real.cos (dec * Real.pi / 180) * Real.cos ((dec + std) * Real.pi / 180) = Real.cos (std * Real.pi / 180) := by
      rw [show std * Real.pi / 180 = (dec + std) * Real.pi / 180 - dec * Real.pi / 180 by ring, Real.cos_sub]
      ring
    rw [this, Real.arccos_cos]
    · have := Real.pi_pos.ne'
      field_simp
    · have := Real.pi_pos
      positivity
    · have := Real.pi_pos
      rw [div_le_iff₀ (by norm_num)]
      nlinarith
  refine ⟨hd, ?_, ?_⟩
  · have := Real.add_one_lt_exp (x := 1 / 2) (by norm_num)
    rw [show (-(1 : ℝ) / 2) = -(1 / 2) by norm_num, Real.exp_neg]
    have h : (1 : ℝ) < Real.exp (1 / 2) * 0.9 := by nlinarith
    rw [inv_lt_iff_one_lt_mul₀ (Real.exp_pos _)]
    linarith
  · rw [hd]
    have e : -(Real.pi / 180 * std) ^ 2 / (2 * std ^ 2) = -(Real.pi ^ 2 / 64800) := by
      field_simp
      ring
    rw [e]
    have h3 : Real.pi ^ 2 / 64800 < 0.00016 := by
      have := Real.pi_lt_d2
      have := Real.pi_pos
      rw [div_lt_iff₀ (by norm_num)]
      nlinarith
    have := Real.add_one_le_exp (-(Real.pi ^ 2 / 64800))
    linarith

/-! ## C85: a spline model -/

theorem notDecreasing_iff : ∀ l : List K, notDecreasing l = true ↔ l.Pairwise (· ≤ ·)
  | [] => by simp [notDecreasing]
  | [a] => by simp [notDecreasing]
  | a :: b :: l => by
    rw [notDecreasing, Bool.and_eq_true, decide_eq_true_eq, notDecreasing_iff (b :: l), sub_nonneg]
    constructor
    · rintro ⟨h1, h2⟩
      refine List.pairwise_cons.2 ⟨?_, h2⟩
      intro x hx
      rcases List.mem_cons.1 hx with rfl | hx
      · exact h1
      · exact h1.trans ((List.pairwise_cons.1 h2).1 x hx)
    · intro h
      obtain ⟨h1, h2⟩ := List.pairwise_cons.1 h
      exact ⟨h1 b (by simp), h2⟩

/-- C85, what holds: for times and wavelengths in order the spectrum is the amplitude times the spline at the time since `t0` (an
unset `t0` counts as zero). What is missing: other models take the times in any order (`C85_order_counterexample`). -/
theorem C85_spline_partial {st : SState K} {p : Params K} {node : Name} {spline : K → K → K} {grid : List K} {a t0 : K} (hp : st.get? node = some p)
    (ha : p.get? "amplitude".toList = some (.num a))
    (ht : p.get? "t0".toList = some (.num t0) ∨ p.get? "t0".toList = some .none ∧ t0 = 0) (times waves : List K) (kw : Kw K) :
    (times.Pairwise (· ≤ ·) → waves.Pairwise (· ≤ ·) →
      (splineModel node spline grid : SEDModel V (Kw K) R K).computeSed kw st times waves =
        .ok (times.map fun t => waves.map fun w => a * spline (t - t0) w)) ∧
    (¬ (times.Pairwise (· ≤ ·) ∧ waves.Pairwise (· ≤ ·)) →
      (splineModel node spline grid : SEDModel V (Kw K) R K).computeSed kw st times waves = .error .valueError) := by
  have hshift : (times.map fun t => t - t0).Pairwise (· ≤ ·) ↔ times.Pairwise (· ≤ ·) := by
    rw [List.pairwise_map]
    simp
  have key : (splineModel node spline grid : SEDModel V (Kw K) R K).computeSed kw st times waves =
      match gridCall spline (times.map fun t => t - t0) waves with
      | .error e => .error e
      | .ok m => .ok (m.map fun row => row.map fun x => a * x) := by
    unfold splineModel plainSed localParams
    dsimp only
    rw [hp]
    dsimp only
    unfold splineSed
    rcases ht with h | ⟨h, rfl⟩
    · rw [h]; dsimp only
      rw [num_of ha]
      cases gridCall spline _ waves <;> rfl
    · rw [h]; dsimp only
      rw [num_of ha]
      cases gridCall spline _ waves <;> rfl
  rw [key]
  constructor
  · intro h1 h2
    unfold gridCall
    rw [if_pos (by rw [(notDecreasing_iff _).2 (hshift.2 h1), (notDecreasing_iff _).2 h2]; rfl)]
    simp [List.map_map, Function.comp_def]
  · intro hn
    unfold gridCall
    rw [if_neg]
    intro h
    rw [Bool.and_eq_true, notDecreasing_iff, notDecreasing_iff, hshift] at h
    exact hn h

/-- C85 fails: the same two observations, one after the other or in the other order; the second call is rejected. -/
theorem C85_order_counterexample :
    (splineModel "m".toList (fun t w => t + w) [1, 2] : SEDModel Unit (Kw ℚ) Unit ℚ).evaluateSingle Kw.empty [0, 1] [1, 2]
      [("m".toList, [("redshift".toList, .num 0), ("t0".toList, .num 0), ("amplitude".toList, .num 1)])] () Kw.empty = .ok ([[1, 2], [2, 3]], ()) ∧
    (splineModel "m".toList (fun t w => t + w) [1, 2] : SEDModel Unit (Kw ℚ) Unit ℚ).evaluateSingle Kw.empty [1, 0] [1, 2]
      [("m".toList, [("redshift".toList, .num 0), ("t0".toList, .num 0), ("amplitude".toList, .num 1)])] () Kw.empty = .error .valueError := by
  constructor <;> decide +kernel

end LCL.BasicProps
