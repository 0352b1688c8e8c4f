import Verif.Model.LclibTemplate
import Verif.Spec.LclibTemplate
import Verif.Props.Template

/-!
# C98: LCLIB tables as lightcurve templates
-/

namespace LCL.LclibTemplateProps
open LCL LclibSpec TemplateSpec TemplateProps

theorem gather_index (mask : List Bool) (l : List ℝ) (n : Nat) (hm : mask.length = n) (hl : l.length = n) :
    gather mask l = ((List.range n).filter fun k => mask.getD k false).map fun k => l.getD k 0 := by
  have : l.zip mask = (List.range n).map fun k => (l.getD k 0, mask.getD k false) := by
    apply List.ext_getElem
    · simp [hm, hl]
    · intro i h1 h2
      have hi : i < n := by simpa using h2
      simp [hm ▸ hi, hl ▸ hi]
  unfold gather
  rw [this, List.filter_map, List.map_map]
  rfl

theorem mask_length {t : LcTable ℝ} {n : Nat} (hr : Rect t n) : (lclibMask t n).length = n := by
  unfold lclibMask
  cases h : t.types with
  | none => simp
  | some ts => simp [hr.types ts h]

theorem mask_get {t : LcTable ℝ} {n : Nat} (hr : Rect t n) {k : Nat} (hk : k < n) :
    (lclibMask t n).getD k false = decide (IsObs t k) := by
  have hi : IsObs t k ↔ ∀ ts, t.types = some ts → ts[k]? = some "S".toList := Iff.rfl
  rw [Bool.eq_iff_iff, decide_eq_true_iff, hi]
  unfold lclibMask
  cases h : t.types with
  | none => simp [hk]
  | some ts =>
    have hl := hr.types ts h
    have : k < ts.length := by omega
    simp [this]

theorem mask_filter {t : LcTable ℝ} {n : Nat} (hr : Rect t n) :
    ((List.range n).filter fun k => (lclibMask t n).getD k false) = (List.range n).filter fun k => decide (IsObs t k) := by
  apply List.filter_congr
  intro k hk
  exact mask_get hr (List.mem_range.1 hk)

theorem col_length {t : LcTable ℝ} {n : Nat} (hr : Rect t n) {f : Name} (hf : f ∈ t.cols.keys) :
    ((t.cols.get? f).getD []).length = n := by
  cases h : t.cols.get? f with
  | none => exact absurd hf ((Dict.get?_eq_none_iff _ _).1 h)
  | some l => exact hr.cols _ (Dict.mem_of_get? h)

theorem curve_rows {t : LcTable ℝ} {n : Nat} (hr : Rect t n) {times : List ℝ} (ht : t.cols.get? "time".toList = some times)
    {f : Name} (hf : f ∈ t.cols.keys) : lclibCurve t (lclibMask t n) times f = obsRows t n f := by
  have h1 : times.length = n := hr.cols _ (Dict.mem_of_get? ht)
  unfold lclibCurve
  rw [gather_index _ _ n (mask_length hr) h1, gather_index _ _ n (mask_length hr) (col_length hr hf), List.map_map,
    List.zip_map', mask_filter hr]
  unfold obsRows cell
  rw [ht]
  rfl

theorem times_rows {t : LcTable ℝ} {n : Nat} (hr : Rect t n) {times : List ℝ} (ht : t.cols.get? "time".toList = some times)
    (f : Name) : gather (lclibMask t n) times = (obsRows t n f).map (·.1) := by
  have h1 : times.length = n := hr.cols _ (Dict.mem_of_get? ht)
  rw [gather_index _ _ n (mask_length hr) h1, mask_filter hr]
  unfold obsRows cell
  rw [ht, List.map_map]
  rfl

theorem mem_filters {t : LcTable ℝ} {filters : Option (List Name)} {f : Name} :
    f ∈ lclibFilters t filters ↔ Wanted t filters f := by
  unfold lclibFilters Wanted
  cases filters with
  | none => simp
  | some fs =>
    simp only [List.mem_filter, decide_eq_true_iff, Option.some.injEq, forall_eq', and_assoc]

theorem filters_nodup {t : LcTable ℝ} {n : Nat} (hr : Rect t n) (filters : Option (List Name)) : (lclibFilters t filters).Nodup := by
  unfold lclibFilters
  cases filters with
  | none => exact hr.names.filter _
  | some fs => exact (hr.names.filter _).filter _

theorem get?_filters {β : Type} (g : Name → β) : ∀ (l : List Name) (f : Name), f ∈ l → Dict.get? (l.map fun f => (f, g f)) f = some (g f)
  | x :: l, f, h => by
    rw [List.map_cons, Dict.get?_cons]
    by_cases e : x = f
    · rw [if_pos e, e]
    · rw [if_neg e]
      exact get?_filters g l f ((List.mem_cons.1 h).resolve_left (Ne.symm e))

theorem baseline_spec {t : LcTable ℝ} {n : Nat} (hr : Rect t n) (fs : List Name) {f : Name} (hf : f ∈ fs) :
    ∃ b, (lclibBaseline t (lclibMask t n) fs).get? f = some b ∧ Base t n f b := by
  unfold lclibBaseline
  cases h : (lclibMask t n).findIdx? (fun b => !b) with
  | none =>
    refine ⟨0, get?_filters (fun _ => (0 : ℝ)) fs f hf, .inl ⟨fun k hk => ?_, rfl⟩⟩
    rw [List.findIdx?_eq_none_iff] at h
    have hl : k < (lclibMask t n).length := by rw [mask_length hr]; exact hk
    have := h _ (List.getElem_mem hl)
    have hg := mask_get hr hk
    rw [List.getD_eq_getElem?_getD, List.getElem?_eq_getElem hl] at hg
    simp only [Option.getD_some] at hg
    rw [hg] at this
    simpa using this
  | some k =>
    refine ⟨_, get?_filters (fun f => mag2flux (((t.cols.get? f).getD []).getD k 0)) fs f hf, .inr ⟨k, ?_⟩⟩
    rw [List.findIdx?_eq_some_iff_getElem] at h
    obtain ⟨hl, h1, h2⟩ := h
    have hk : k < n := by rw [mask_length hr] at hl; exact hl
    refine ⟨hk, ?_, ?_, rfl⟩
    · have hg := mask_get hr hk
      rw [List.getD_eq_getElem?_getD, List.getElem?_eq_getElem hl] at hg
      simp only [Option.getD_some] at hg
      rw [hg] at h1
      simpa using h1
    · intro j hj
      have hg := mask_get hr (hj.trans hk)
      have hjl : j < (lclibMask t n).length := hj.trans hl
      rw [List.getD_eq_getElem?_getD, List.getElem?_eq_getElem hjl] at hg
      simp only [Option.getD_some] at hg
      have := h2 j hj
      rw [hg] at this
      simpa using this

theorem periodic_of {t : LcTable ℝ} (h : Periodic t) : lclibPeriodic t = .ok true := by
  unfold lclibPeriodic
  rcases h with h | h <;> rw [h] <;> rfl

theorem nonperiodic_of {t : LcTable ℝ} (h : NonPeriodic t) : lclibPeriodic t = .ok false := by
  unfold lclibPeriodic
  rcases h with h | h | h | h <;> rw [h] <;> rfl

theorem periodic_iff {t : LcTable ℝ} {b : Bool} (h : lclibPeriodic t = .ok b) : (b = true ∧ Periodic t) ∨ (b = false ∧ NonPeriodic t) := by
  unfold lclibPeriodic at h
  unfold Periodic NonPeriodic
  split at h
  · rename_i hn; cases h; exact .inr ⟨rfl, .inl hn⟩
  · cases h
  · rename_i s hs
    rw [hs]
    split at h
    · rename_i e
      cases h
      rcases e with rfl | rfl
      · exact .inl ⟨rfl, .inl rfl⟩
      · exact .inl ⟨rfl, .inr rfl⟩
    · split at h
      · rename_i e; cases h; subst e; exact .inr ⟨rfl, .inr (.inr (.inr rfl))⟩
      · split at h
        · rename_i e; cases h; subst e; exact .inr ⟨rfl, .inr (.inr (.inl rfl))⟩
        · split at h
          · rename_i e; cases h; subst e; exact .inr ⟨rfl, .inr (.inl rfl)⟩
          · cases h

/-- What an accepted table went through. -/
theorem from_split {t : LcTable ℝ} {forced : Option ℝ} {filters : Option (List Name)} {d : LcData} {n : Nat} (hr : Rect t n)
    (h : fromLclib t forced filters = .ok d) :
    ∃ times t0 periodic curves, t.cols.get? "time".toList = some times ∧ times.length = n ∧
      lclibT0 (gather (lclibMask t n) times) forced = .ok t0 ∧ lclibPeriodic t = .ok periodic ∧
      lclibWrap periodic (gather (lclibMask t n) times) ((lclibFilters t filters).map fun f => (f, obsRows t n f)) = .ok curves ∧
      lcInit (.dict (curves.map fun p => (p.1, ⟨2, p.2⟩))) t0 periodic false
        (if periodic then none else some (lclibBaseline t (lclibMask t n) (lclibFilters t filters))) = .ok d := by
  unfold fromLclib at h
  split at h
  · cases h
  · rename_i times ht
    have hl : times.length = n := hr.cols _ (Dict.mem_of_get? ht)
    rw [hl] at h
    split at h
    · cases h
    · split at h
      · cases h
      · rename_i t0 h0
        split at h
        · cases h
        · rename_i periodic hp
          have hc : ((lclibFilters t filters).map fun f => (f, lclibCurve t (lclibMask t n) times f)) =
              (lclibFilters t filters).map fun f => (f, obsRows t n f) := by
            apply List.map_congr_left
            intro f hf
            rw [curve_rows hr ht (mem_filters.1 hf).1]
          rw [hc] at h
          split at h
          · cases h
          · rename_i curves hw
            exact ⟨times, t0, periodic, curves, ht, hl, h0, hp, hw, h⟩

theorem npMin_head {l : List ℝ} (hs : l.Pairwise (· < ·)) {x : ℝ} (h : npMin l = some x) : l.head? = some x := by
  cases l with
  | nil => cases h
  | cons a l =>
    rw [List.pairwise_cons] at hs
    unfold npMin at h
    dsimp only at h
    have : ∀ (l : List ℝ), (∀ b ∈ l, a < b) → l.foldl min a = a := by
      intro l
      induction l with
      | nil => intro _; rfl
      | cons b l ih =>
        intro hb
        rw [List.foldl_cons, min_eq_left (hb b List.mem_cons_self).le]
        exact ih fun c hc => hb c (List.mem_cons_of_mem _ hc)
    rw [this l hs.1] at h
    exact h

theorem conv_false : conv false = id := by funext x; simp [conv]

/-- C98: a table that is not periodic: at the time `s` after the reference epoch `T0` (the forced one, or the first
observation), the flux in a filter is that of the straight lines through the observations, the magnitudes converted
to nJy; before and after the observations it is the flux of the first template row, or zero. -/
theorem C98_nonperiodic {t : LcTable ℝ} {n : Nat} (hr : Rect t n) (hp : NonPeriodic t) {forced : Option ℝ}
    {filters : Option (List Name)} {d : LcData} (h : fromLclib t forced filters = .ok d) {f : Name} (hf : Wanted t filters f) :
    ∃ b T0, Base t n f b ∧ (forced = some T0 ∨ (forced = none ∧ (obsRows t n f).head?.map (·.1) = some T0)) ∧
      d.period = none ∧ ∀ times, ∃ vals, lcEval d times f = .ok vals ∧ vals.length = times.length ∧
        ∀ (i : Nat) s v, times[i]? = some s → vals[i]? = some v → FluxAt (obsRows t n f) id b (s + T0) v := by
  obtain ⟨times, t0, periodic, curves, ht, hl, h0, hper, hw, hi⟩ := from_split hr h
  rw [nonperiodic_of hp] at hper
  cases hper
  have hw' : curves = (lclibFilters t filters).map fun f => (f, obsRows t n f) := by
    simpa [lclibWrap] using hw.symm
  subst hw'
  rw [List.map_map] at hi
  simp only [Bool.false_eq_true, if_false] at hi
  have hmem := mem_filters.2 hf
  obtain ⟨b, hb, hbase⟩ := baseline_spec hr (lclibFilters t filters) hmem
  have hdata : DataOf (.dict ((lclibFilters t filters).map ((fun p => (p.1, ⟨2, p.2⟩)) ∘ fun f => (f, obsRows t n f)))) f (obsRows t n f) :=
    ⟨⟨2, obsRows t n f⟩, get?_filters (fun f => (⟨2, obsRows t n f⟩ : LcInput)) _ f hmem, rfl⟩
  have hacc := (C49_accepted hi).1 (f, ⟨2, obsRows t n f⟩) (List.mem_map.2 ⟨f, hmem, rfl⟩)
  refine ⟨b, t0, hbase, ?_, ?_, ?_⟩
  · unfold lclibT0 at h0
    cases forced with
    | some x => left; simpa using h0
    | none =>
      right
      refine ⟨rfl, ?_⟩
      dsimp only at h0
      split at h0
      · cases h0
      · rename_i x hx
        cases h0
        rw [times_rows hr ht f] at hx
        have := npMin_head (by rw [List.pairwise_map]; exact hacc.2.1) hx
        rw [List.head?_map] at this
        exact this
  · obtain ⟨inp, _, _, h2⟩ := init_split hi
    rcases h2 with ⟨_, hfin⟩ | ⟨hf, _⟩
    · exact (TemplateLemmas.finish_spec hfin).2.2.1
    · cases hf
  · intro ts
    obtain ⟨vals, e1, e2, e3⟩ := C49_nonperiodic_partial hi hdata (by simp) ts
    refine ⟨vals, e1, e2, fun i s v hs hv => ?_⟩
    have := e3 i s v hs hv
    rw [conv_false] at this
    have hb' : baseFlux false (some (lclibBaseline t (lclibMask t n) (lclibFilters t filters))) f = b := by
      unfold baseFlux
      dsimp only
      rw [hb, conv_false]
      rfl
    rw [hb'] at this
    exact this

theorem allMatch_spec : ∀ {l : List (List (ℝ × ℝ))} {b : Bool}, lclibAllMatch l = .ok b →
    (∀ lc ∈ l, ∃ p q, lc.head? = some p ∧ lc.getLast? = some q) ∧
    (b = true ↔ ∀ lc ∈ l, ∀ p q, lc.head? = some p → lc.getLast? = some q → isClose p.2 q.2)
  | [], b, h => by cases h; simp
  | lc :: rest, b, h => by
    unfold lclibAllMatch at h
    split at h
    · rename_i p q hp hq
      split at h
      · cases h
      · rename_i m hm
        cases h
        obtain ⟨h1, h2⟩ := allMatch_spec hm
        refine ⟨?_, ?_⟩
        · intro lc' hlc
          rcases List.mem_cons.1 hlc with rfl | hlc
          · exact ⟨p, q, hp, hq⟩
          · exact h1 lc' hlc
        · rw [Bool.and_eq_true, decide_eq_true_iff, h2]
          constructor
          · rintro ⟨a, b⟩ lc' hlc p' q' hp' hq'
            rcases List.mem_cons.1 hlc with rfl | hlc
            · rw [hp] at hp'; rw [hq] at hq'; cases hp'; cases hq'; exact a
            · exact b lc' hlc p' q' hp' hq'
          · intro hall
            exact ⟨hall lc List.mem_cons_self p q hp hq, fun lc' hlc => hall lc' (List.mem_cons_of_mem _ hlc)⟩
    · cases h

/-- C98: a periodic table: the flux in a filter repeats with the period `P` of the cycle (the observations, closed by
a return to the first flux one average step later unless every filter already ends where it starts), and within a
cycle is that of the straight lines through its rows, from the first observation on. -/
theorem C98_periodic {t : LcTable ℝ} {n : Nat} (hr : Rect t n) (hp : Periodic t) {filters : Option (List Name)} {d : LcData}
    (h : fromLclib t none filters = .ok d) {f : Name} (hf : Wanted t filters f) :
    ∃ rows p q, Cycle t n filters f rows ∧ rows.head? = some p ∧ rows.getLast? = some q ∧ p.1 < q.1 ∧
      d.period = some (q.1 - p.1) ∧ d.t0 = p.1 ∧ ∀ times, ∃ vals, lcEval d times f = .ok vals ∧ vals.length = times.length ∧
        ∀ (i : Nat) s v, times[i]? = some s → vals[i]? = some v →
          ∃ (k : ℤ) (u : ℝ), u = p.1 + s - k * (q.1 - p.1) ∧ p.1 ≤ u ∧ u < q.1 ∧ OnCurve rows id u v := by
  obtain ⟨times, t0, periodic, curves, ht, hl, h0, hper, hw, hi⟩ := from_split hr h
  rw [periodic_of hp] at hper
  cases hper
  simp only [if_true] at hi
  have hmem := mem_filters.2 hf
  have hts : ∀ g, gather (lclibMask t n) times = (obsRows t n g).map (·.1) := times_rows hr ht
  have hvals : Dict.values ((lclibFilters t filters).map fun f => (f, obsRows t n f)) = (lclibFilters t filters).map (obsRows t n) := by
    unfold Dict.values; rw [List.map_map]; rfl
  -- the rows of each filter
  obtain ⟨R, hR, hcy, hRt⟩ : ∃ R : Name → List (ℝ × ℝ), curves = (lclibFilters t filters).map (fun f => (f, R f)) ∧
      (∀ g, Wanted t filters g → Cycle t n filters g (R g)) ∧
      ∃ tl, ∀ g, Wanted t filters g → (R g).map (·.1) = (obsRows t n g).map (·.1) ++ tl := by
    unfold lclibWrap at hw
    rw [if_pos rfl, hvals] at hw
    split at hw
    · cases hw
    · rename_i hm
      cases hw
      obtain ⟨-, h2⟩ := allMatch_spec hm
      refine ⟨obsRows t n, rfl, fun g _ => .inl ⟨?_, rfl⟩, [], fun g _ => by simp⟩
      intro g hg p q hpp hqq
      exact (h2.1 rfl) _ (List.mem_map_of_mem (mem_filters.2 hg)) p q hpp hqq
    · rename_i hm
      cases hw
      obtain ⟨h1, h2⟩ := allMatch_spec hm
      refine ⟨fun g => lclibClose (lclibNewEnd (gather (lclibMask t n) times)) (obsRows t n g), by rw [List.map_map]; rfl,
        fun g hg => .inr ⟨?_, ?_⟩, [lclibNewEnd (gather (lclibMask t n) times)], fun g hg => by simp [lclibClose]⟩
      · intro hall
        have : false = true := h2.2 (by
          intro lc hlc p q hpp hqq
          obtain ⟨g', hg', rfl⟩ := List.mem_map.1 hlc
          exact hall g' (mem_filters.1 hg') p q hpp hqq)
        cases this
      · obtain ⟨p, q, hpp, hqq⟩ := h1 _ (List.mem_map_of_mem (mem_filters.2 hg))
        refine ⟨p, q, hpp, hqq, ?_⟩
        have e1 : (obsRows t n g).headD (0, 0) = p := by rw [List.headD_eq_head?_getD, hpp]; rfl
        have e2 : ((obsRows t n g).map (·.1)).headD 0 = p.1 := by
          rw [List.headD_eq_head?_getD, List.head?_map, hpp]; rfl
        have e3 : ((obsRows t n g).map (·.1)).getLastD 0 = q.1 := by
          rw [List.getLastD_eq_getLast?, List.getLast?_map, hqq]; rfl
        rw [hts g]
        unfold lclibClose lclibNewEnd
        dsimp only
        rw [e1, e2, e3, List.length_map]
  subst hR
  rw [List.map_map] at hi
  have hget : Dict.get? ((lclibFilters t filters).map ((fun p => (p.1, (⟨2, p.2⟩ : LcInput))) ∘ fun f => (f, R f))) f = some ⟨2, R f⟩ :=
    get?_filters (fun f => (⟨2, R f⟩ : LcInput)) _ f hmem
  have hacc := (C49_accepted hi).1 (f, ⟨2, R f⟩) (List.mem_map.2 ⟨f, hmem, rfl⟩)
  dsimp only at hacc
  obtain ⟨p, hpp⟩ : ∃ p, (R f).head? = some p := by
    cases hh : (R f) with
    | nil => exact absurd hh hacc.2.2
    | cons a l => exact ⟨a, rfl⟩
  obtain ⟨q, hqq⟩ : ∃ q, (R f).getLast? = some q := by
    cases hh : (R f).getLast? with
    | none => exact absurd (List.getLast?_eq_none_iff.1 hh) hacc.2.2
    | some q => exact ⟨q, rfl⟩
  have hstart : t0 = p.1 := by
    unfold lclibT0 at h0
    dsimp only at h0
    split at h0
    · cases h0
    · rename_i x hx
      cases h0
      obtain ⟨tl, htl⟩ := hRt
      have hpw : ((R f).map (·.1)).Pairwise (· < ·) := by rw [List.pairwise_map]; exact hacc.2.1
      rw [hts f] at hx
      rw [htl f hf, List.pairwise_append] at hpw
      have := npMin_head hpw.1 hx
      have h2 : ((R f).map (·.1)).head? = some t0 := by
        rw [htl f hf, List.head?_append, this]; rfl
      rw [List.head?_map, hpp] at h2
      simpa using h2.symm
  have hsame : ∀ x ∈ (lclibFilters t filters).map ((fun p => (p.1, (⟨2, p.2⟩ : LcInput))) ∘ fun f => (f, R f)),
      x.2.rows.map (·.1) = (R f).map (·.1) := by
    intro x hx
    obtain ⟨g, hg, rfl⟩ := List.mem_map.1 hx
    obtain ⟨tl, htl⟩ := hRt
    show (R g).map (·.1) = _
    rw [htl g (mem_filters.1 hg), htl f hf, ← hts g, ← hts f]
  obtain ⟨k1, k2, -⟩ := C49_periodic_values_partial hi hget hpp hqq hsame (.inl hstart) []
  refine ⟨R f, p, q, hcy f hf, hpp, hqq, ?_, k1, k2, fun ts => ?_⟩
  · obtain ⟨P, hP, hpos, -⟩ := C49_periodic_repeats hi
    rw [k1] at hP
    cases hP
    linarith
  · obtain ⟨-, -, vals, e1, e2, e3⟩ := C49_periodic_values_partial hi hget hpp hqq hsame (.inl hstart) ts
    refine ⟨vals, e1, e2, fun i s v hs hv => ?_⟩
    obtain ⟨k, u, a1, a2, a3, a4⟩ := e3 i s v hs hv
    rw [conv_false] at a4
    exact ⟨k, u, a1, a2, a3, a4⟩

/-- C98: a table without a time column, without a wanted filter, with a recurrence class that is not one of the four
known ones, or (unless the reference epoch is forced) without an observation raises ValueError. -/
theorem C98_rejected {t : LcTable ℝ} {n : Nat} (hr : Rect t n) (forced : Option ℝ) (filters : Option (List Name)) :
    ("time".toList ∉ t.cols.keys → fromLclib t forced filters = .error .valueError) ∧
    ((∀ f, ¬ Wanted t filters f) → fromLclib t forced filters = .error .valueError) ∧
    (¬ Periodic t → ¬ NonPeriodic t → fromLclib t forced filters = .error .valueError) ∧
    (forced = none → (∀ k, k < n → ¬ IsObs t k) → fromLclib t forced filters = .error .valueError) := by
  have hnot : ∀ {times}, t.cols.get? "time".toList = some times → times.length = n := fun ht => hr.cols _ (Dict.mem_of_get? ht)
  refine ⟨fun h => ?_, fun h => ?_, fun h h' => ?_, fun hfo h => ?_⟩
  · unfold fromLclib
    cases ht : t.cols.get? "time".toList with
    | none => rfl
    | some times =>
      rw [← Dict.get?_eq_none_iff, ht] at h
      cases h
  · have : lclibFilters t filters = [] := List.eq_nil_iff_forall_not_mem.2 fun f hf => h f (mem_filters.1 hf)
    unfold fromLclib
    cases t.cols.get? "time".toList with
    | none => rfl
    | some times => simp [this]
  · have hpe : lclibPeriodic t = .error .valueError := by
      cases hp : lclibPeriodic t with
      | ok b => rcases periodic_iff hp with ⟨-, x⟩ | ⟨-, x⟩
                · exact absurd x h
                · exact absurd x h'
      | error e =>
        unfold lclibPeriodic at hp
        split at hp
        · cases hp
        · exact hp.symm ▸ rfl
        · split at hp
          · cases hp
          · split at hp
            · cases hp
            · split at hp
              · cases hp
              · split at hp
                · cases hp
                · exact hp.symm ▸ rfl
    unfold fromLclib
    cases t.cols.get? "time".toList with
    | none => rfl
    | some times =>
      dsimp only
      split
      · rfl
      · unfold lclibT0
        cases forced with
        | some x => dsimp only; rw [hpe]
        | none =>
          dsimp only
          cases npMin (gather (lclibMask t times.length) times) with
          | none => rfl
          | some x => dsimp only; rw [hpe]
  · subst hfo
    unfold fromLclib
    cases ht : t.cols.get? "time".toList with
    | none => rfl
    | some times =>
      dsimp only
      split
      · rfl
      · have hl := hnot ht
        have : gather (lclibMask t times.length) times = [] := by
          rw [hl, gather_index _ _ n (mask_length hr) hl, mask_filter hr, List.filter_eq_nil_iff.2]
          · rfl
          · intro k hk
            simpa using h k (List.mem_range.1 hk)
        rw [this]
        rfl

/-! ## Non-vacuity -/

/-- A template row and two observations in one filter. -/
noncomputable def sample (info : Dict Name LcMeta) : LcTable ℝ where
  types := some ["T".toList, "S".toList, "S".toList]
  cols := [("time".toList, [0, 1, 2]), ("g".toList, [30, 20, 21])]
  info := info

theorem sample_rect (info : Dict Name LcMeta) : Rect (sample info) 3 :=
  ⟨by unfold sample; simp, by rintro ts ⟨⟩; rfl, by unfold sample; simp [Dict.keys]⟩

theorem sample_wanted (info : Dict Name LcMeta) : Wanted (sample info) none "g".toList :=
  ⟨by unfold sample; simp [Dict.keys], by decide, by rintro fs ⟨⟩⟩

example : ∃ d, fromLclib (sample []) none none = .ok d := by
  have h : lclibBaseline ⟨some [['T'], ['S'], ['S']], [(['t', 'i', 'm', 'e'], [0, 1, 2]), (['g'], [30, 20, 21])], []⟩
      [false, true, true] [['g']] = [(['g'], mag2flux 30)] := rfl
  simp [fromLclib, sample, Dict.get?, lclibFilters, lclibMask, lclibT0, npMin, gather, lclibPeriodic, lclibWrap, lclibCurve,
    Dict.keys, lcInit, lcSplit, lcShiftAll, lcShiftOne, npDiff, lcFinish, lcEnds, lcBaseline, Dict.has, lcShiftRow]
  rw [h]
  exact ⟨_, rfl⟩

end LCL.LclibTemplateProps
