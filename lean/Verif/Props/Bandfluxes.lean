import Verif.Props.Physical
import Mathlib.Data.List.Dedup
import Mathlib.Data.List.Sort

/-!
# Property C31 (each observation gets the flux of its own filter and time)
-/

namespace LCL.BandfluxProps
open LCL LCL.PhysSpec LCL.PhysLemmas LCL.PhysicalProps
variable {K : Type} [Field K] [LinearOrder K] {V W R : Type}

theorem mem_npUnique (l : List Name) (f : Name) : f ∈ npUnique l ↔ f ∈ l := by
  unfold npUnique
  rw [List.mem_dedup, List.mem_mergeSort]

theorem nodup_npUnique (l : List Name) : (npUnique l).Nodup := List.nodup_dedup _

theorem npUnique_singleton (f : Name) : npUnique [f] = [f] := by
  simp [npUnique]

/-- The value of one observation: look the band up, evaluate the model at that time, integrate. -/
def single (evalSed : List K → List K → R → Except Err (Mat K × R)) (g : PassbandGroup K) (r : R) (f : Name) (t : K) :
    Except Err K :=
  match g.getItem f with
  | .error e => .error e
  | .ok pb => match evalSed [t] pb.waves r with
    | .error e => .error e
    | .ok (sed, _) => match pb.bandflux sed with
      | .error e => .error e
      | .ok v => .ok (v.headD 0)

theorem scatter_zip (p : Name → Bool) (h : K → K) : ∀ (filters : List Name) (times out : List K),
    filters.length = times.length → out.length = times.length →
    scatter (filters.map p) out ((gather (filters.map p) times).map h) =
      List.zipWith (fun q x => if p q.1 then h q.2 else x) (filters.zip times) out
  | [], times, out, h1, h2 => by
    have : times = [] := List.length_eq_zero_iff.1 h1.symm
    subst this
    have : out = [] := List.length_eq_zero_iff.1 h2
    subst this
    simp [scatter]
  | f :: fs, [], out, h1, _ => by simp at h1
  | f :: fs, t :: ts, [], _, h2 => by simp at h2
  | f :: fs, t :: ts, x :: out, h1, h2 => by
    have ih := scatter_zip p h fs ts out (by simpa using h1) (by simpa using h2)
    cases hp : p f <;> simp [scatter, hp, ih]

theorem gather_ne_nil (f : Name) : ∀ (filters : List Name) (times : List K), filters.length = times.length →
    f ∈ filters → gather (filters.map fun x => decide (x = f)) times ≠ []
  | [], _, _, h => by simp at h
  | x :: fs, [], h, _ => by simp at h
  | x :: fs, t :: ts, h, hf => by
    by_cases hx : x = f
    · simp [hx]
    · simp only [List.map_cons, hx, decide_false, gather_false]
      exact gather_ne_nil f fs ts (by simpa using h) (by
        rcases List.mem_cons.1 hf with e | e
        · exact absurd e.symm hx
        · exact e)

/-- One step of the loop, for a row-wise evaluation. -/
theorem step_cases {evalSed : List K → List K → R → Except Err (Mat K × R)} {r : R} (hrow : RowWise evalSed r)
    (g : PassbandGroup K) (f : Name) :
    (∃ pb h, g.getItem f = .ok pb ∧ (∀ t, single evalSed g r f t = .ok (h t)) ∧
      ∀ ts, ts ≠ [] → ∃ sed, evalSed ts pb.waves r = .ok (sed, r) ∧ pb.bandflux sed = .ok (ts.map h)) ∨
    ((∀ t, ∃ e, single evalSed g r f t = .error e) ∧
      ((∃ e, g.getItem f = .error e) ∨ ∃ pb, g.getItem f = .ok pb ∧ ∀ ts, ts ≠ [] →
        (∃ e, evalSed ts pb.waves r = .error e) ∨ ∃ sed e, evalSed ts pb.waves r = .ok (sed, r) ∧ pb.bandflux sed = .error e)) := by
  unfold single
  cases hg : g.getItem f with
  | error e => exact Or.inr ⟨fun _ => ⟨e, rfl⟩, Or.inl ⟨e, rfl⟩⟩
  | ok pb =>
    simp only
    rcases hrow pb.waves with ⟨row, hl, hr⟩ | ⟨e, he⟩
    · by_cases hw : pb.waves = []
      · right
        have hb : ∀ ts : List K, ts ≠ [] → pb.bandflux (ts.map row) = .error .valueError := by
          intro ts hts
          cases ts with
          | nil => exact absurd rfl hts
          | cons t ts =>
            have : row t = [] := List.length_eq_zero_iff.1 (by rw [hl, hw]; rfl)
            simp [Passband.bandflux, this]
        refine ⟨fun t => ?_, Or.inr ⟨pb, rfl, fun ts hts => Or.inr ⟨_, _, hr ts, hb ts hts⟩⟩⟩
        rw [hr]
        simp only
        rw [hb [t] (by simp)]
        exact ⟨_, rfl⟩
      · left
        have hb : ∀ ts : List K, ts ≠ [] → pb.bandflux (ts.map row) = .ok (ts.map fun t => pb.integrate (row t)) := by
          intro ts hts
          cases ts with
          | nil => exact absurd rfl hts
          | cons t ts =>
            have : row t ≠ [] := by
              intro h
              have := hl t
              rw [h] at this
              exact hw (List.length_eq_zero_iff.1 this.symm)
            simp only [Passband.bandflux, List.map_cons]
            rw [if_neg this, if_neg (by rw [hl]; simp)]
            simp
        refine ⟨pb, fun t => pb.integrate (row t), rfl, fun t => ?_, fun ts hts => ⟨_, hr ts, hb ts hts⟩⟩
        rw [hr]
        simp only
        rw [hb [t] (by simp)]
        rfl
    · exact Or.inr ⟨fun t => ⟨e, by rw [he]⟩, Or.inr ⟨pb, rfl, fun ts _ => Or.inl ⟨e, he ts⟩⟩⟩

theorem zip_get {filters : List Name} {times : List K} {i : Nat} {f : Name} {t : K} (hf : filters[i]? = some f)
    (ht : times[i]? = some t) : (filters.zip times)[i]? = some (f, t) := by
  rw [List.getElem?_zip_eq_some]
  exact ⟨hf, ht⟩

theorem loop_spec {evalSed : List K → List K → R → Except Err (Mat K × R)} {r : R} (hrow : RowWise evalSed r)
    (g : PassbandGroup K) (times : List K) (filters : List Name) (hlen : filters.length = times.length) :
    ∀ (fs : List Name) (out : List K), fs.Nodup → (∀ f ∈ fs, f ∈ filters) → out.length = times.length →
    (∀ res, bandfluxLoop evalSed g times filters fs r out = .ok res → res.2 = r ∧ res.1.length = times.length ∧
      ∀ (i : Nat) f t, filters[i]? = some f → times[i]? = some t →
        (f ∈ fs → ∃ x, res.1[i]? = some x ∧ single evalSed g r f t = .ok x) ∧ (f ∉ fs → res.1[i]? = out[i]?)) ∧
    ((∀ f ∈ fs, ∀ t, ∃ x, single evalSed g r f t = .ok x) →
      ∃ res, bandfluxLoop evalSed g times filters fs r out = .ok res) := by
  intro fs
  induction fs with
  | nil =>
    intro out _ _ ho
    refine ⟨?_, fun _ => ⟨_, rfl⟩⟩
    intro res h
    simp only [bandfluxLoop, Except.ok.injEq] at h
    subst h
    refine ⟨rfl, ho, ?_⟩
    intro i f t _ _
    simp
  | cons f fs ih =>
    intro out hnd hsub ho
    rw [List.nodup_cons] at hnd
    have hne := gather_ne_nil f filters times hlen (hsub f (by simp))
    simp only [bandfluxLoop]
    rcases step_cases hrow g f with ⟨pb, h, hg, hs, hev⟩ | ⟨hs, hbad⟩
    · obtain ⟨sed, he, hb⟩ := hev _ hne
      rw [hg]
      simp only
      rw [he]
      simp only
      rw [hb]
      simp only
      rw [scatter_zip _ h filters times out hlen ho]
      have ho' : (List.zipWith (fun (q : Name × K) x => if decide (q.1 = f) then h q.2 else x) (filters.zip times) out).length = times.length := by
        simp [hlen, ho]
      obtain ⟨i1, i2⟩ := ih (List.zipWith (fun (q : Name × K) x => if decide (q.1 = f) then h q.2 else x) (filters.zip times) out) hnd.2 (fun x hx => hsub x (List.mem_cons_of_mem _ hx)) ho'
      refine ⟨?_, ?_⟩
      · intro res hres
        obtain ⟨j1, j2, j3⟩ := i1 res hres
        refine ⟨j1, j2, ?_⟩
        intro i f' t hf ht
        obtain ⟨k1, k2⟩ := j3 i f' t hf ht
        have hz := zip_get hf ht
        have hi : i < out.length := by
          rw [ho]; exact (List.getElem?_eq_some_iff.1 ht).1
        have hval : (List.zipWith (fun (q : Name × K) x => if decide (q.1 = f) then h q.2 else x) (filters.zip times) out)[i]? =
            some (if f' = f then h t else out[i]) := by
          rw [List.getElem?_zipWith, hz, List.getElem?_eq_getElem hi]
          simp
        refine ⟨?_, ?_⟩
        · intro hm
          by_cases hff : f' = f
          · have hnot : f' ∉ fs := by rw [hff]; exact hnd.1
            refine ⟨h t, ?_, by rw [hff]; exact hs t⟩
            rw [k2 hnot, hval, if_pos hff]
          · exact k1 ((List.mem_cons.1 hm).resolve_left hff)
        · intro hm
          simp only [List.mem_cons, not_or] at hm
          rw [k2 hm.2, hval, if_neg hm.1, List.getElem?_eq_getElem hi]
      · intro hall
        exact i2 (fun x hx => hall x (List.mem_cons_of_mem _ hx))
    · refine ⟨?_, ?_⟩
      · intro res hres
        exfalso
        rcases hbad with ⟨e, he⟩ | ⟨pb, hg, hb⟩
        · rw [he] at hres; simp at hres
        · rw [hg] at hres
          simp only at hres
          rcases hb _ hne with ⟨e, he⟩ | ⟨sed, e, he, hb⟩
          · rw [he] at hres; simp at hres
          · rw [he] at hres; simp only at hres; rw [hb] at hres; simp at hres
      · intro hall
        exfalso
        obtain ⟨x, hx⟩ := hall f (by simp) 0
        obtain ⟨e, he⟩ := hs 0
        rw [hx] at he; cases he

theorem single_run {evalSed : List K → List K → R → Except Err (Mat K × R)} {r : R} (hrow : RowWise evalSed r)
    (g : PassbandGroup K) (f : Name) (t x : K) :
    bandfluxesSingle evalSed g [t] [f] r = .ok ([x], r) ↔ single evalSed g r f t = .ok x := by
  unfold bandfluxesSingle
  rw [npUnique_singleton]
  obtain ⟨h1, h2⟩ := loop_spec hrow g [t] [f] rfl [f] ([t].map fun _ => 0) (by simp) (by simp) (by simp)
  constructor
  · intro h
    obtain ⟨_, _, h3⟩ := h1 _ h
    obtain ⟨y, hy, hs⟩ := (h3 0 f t rfl rfl).1 (by simp)
    simp only [List.getElem?_cons_zero, Option.some.injEq] at hy
    rw [hy]; exact hs
  · intro h
    obtain ⟨res, hres⟩ := h2 (by
      intro f' hf' t'
      simp only [List.mem_cons, List.not_mem_nil, or_false] at hf'
      subst hf'
      rcases step_cases hrow g f' with ⟨pb, h', _, hs, _⟩ | ⟨hs, _⟩
      · exact ⟨_, hs t'⟩
      · obtain ⟨e, he⟩ := hs t; rw [h] at he; cases he)
    obtain ⟨e1, e2, e3⟩ := h1 _ hres
    obtain ⟨y, hy, hs⟩ := (e3 0 f t rfl rfl).1 (by simp)
    rw [h] at hs; cases hs
    rw [hres]
    obtain ⟨l, r'⟩ := res
    simp only at e1 e2 hy ⊢
    subst e1
    cases l with
    | nil => simp at hy
    | cons a l =>
      simp only [List.getElem?_cons_zero, Option.some.injEq] at hy
      simp only [List.length_cons, List.length_nil, zero_add, Nat.add_eq_right, List.length_eq_zero_iff] at e2
      rw [e2, hy]

/-- C31 for any evaluation that treats the times one by one and draws no random numbers: the request of
many observations succeeds with `out` exactly when `out` has one entry per observation and, for every
observation, the request of that observation alone succeeds with exactly that entry. -/
theorem C31_independent (evalSed : List K → List K → R → Except Err (Mat K × R)) (r : R) (hrow : RowWise evalSed r)
    (g : PassbandGroup K) (times : List K) (filters : List Name) (hlen : filters.length = times.length) (out : List K) :
    bandfluxesSingle evalSed g times filters r = .ok (out, r) ↔
      out.length = times.length ∧ ∀ (i : Nat) t f x, times[i]? = some t → filters[i]? = some f → out[i]? = some x →
        bandfluxesSingle evalSed g [t] [f] r = .ok ([x], r) := by
  obtain ⟨h1, h2⟩ := loop_spec hrow g times filters hlen (npUnique filters) (times.map fun _ => 0)
    (nodup_npUnique _) (fun f hf => (mem_npUnique _ _).1 hf) (by simp)
  have hmem : ∀ (i : Nat) f, filters[i]? = some f → f ∈ npUnique filters := by
    intro i f hf
    rw [mem_npUnique]
    exact List.mem_of_getElem? hf
  constructor
  · intro h
    obtain ⟨e1, e2, e3⟩ := h1 _ h
    refine ⟨e2, ?_⟩
    intro i t f x ht hf hx
    obtain ⟨y, hy, hs⟩ := (e3 i f t hf ht).1 (hmem i f hf)
    simp only at hy
    rw [hx] at hy; cases hy
    exact (single_run hrow g f t x).2 hs
  · rintro ⟨hl, hall⟩
    obtain ⟨res, hres⟩ := h2 (by
      intro f hf t
      rw [mem_npUnique] at hf
      obtain ⟨i, hi, hfi⟩ := List.getElem_of_mem hf
      have hi' : i < times.length := hlen ▸ hi
      have hs := (single_run hrow g f (times[i]) (out[i]'(hl ▸ hi'))).1 (hall i _ f _ (List.getElem?_eq_getElem hi')
        (by rw [← hfi]; exact List.getElem?_eq_getElem hi) (List.getElem?_eq_getElem (hl ▸ hi')))
      rcases step_cases hrow g f with ⟨pb, h', _, hs', _⟩ | ⟨hs', _⟩
      · exact ⟨_, hs' t⟩
      · obtain ⟨e, he⟩ := hs' times[i]; rw [hs] at he; cases he)
    obtain ⟨e1, e2, e3⟩ := h1 _ hres
    obtain ⟨l, r'⟩ := res
    simp only at e1 e2 e3
    subst e1
    have : l = out := by
      apply List.ext_getElem?
      intro i
      by_cases hi : i < times.length
      · have hif : i < filters.length := hlen ▸ hi
        obtain ⟨y, hy, hs⟩ := (e3 i _ _ (List.getElem?_eq_getElem hif) (List.getElem?_eq_getElem hi)).1
          (hmem i _ (List.getElem?_eq_getElem hif))
        have h3 := (single_run hrow g _ _ _).1 (hall i _ _ _ (List.getElem?_eq_getElem hi) (List.getElem?_eq_getElem hif)
          (List.getElem?_eq_getElem (hl ▸ hi)))
        rw [hs] at h3
        cases h3
        rw [hy, List.getElem?_eq_getElem (hl ▸ hi)]
      · rw [List.getElem?_eq_none (by omega), List.getElem?_eq_none (by omega)]
    unfold bandfluxesSingle
    rw [hres, this]

/-- C31, the value: with a band found for every filter, entry i is the integral, over the band of filters[i],
of the model's row at times[i]. -/
theorem C31_value (evalSed : List K → List K → R → Except Err (Mat K × R)) (r : R) (g : PassbandGroup K)
    (t : K) (f : Name) (pb : Passband K) (row : List K) (hg : g.getItem f = .ok pb)
    (hw : pb.waves ≠ []) (hl : row.length = pb.waves.length) (hev : evalSed [t] pb.waves r = .ok ([row], r)) :
    bandfluxesSingle evalSed g [t] [f] r = .ok ([pb.integrate row], r) := by
  unfold bandfluxesSingle
  rw [npUnique_singleton]
  simp only [bandfluxLoop, List.map_cons, List.map_nil, decide_true, gather_true, gather_nil]
  rw [hg]
  simp only
  rw [hev]
  simp only [Passband.bandflux]
  rw [if_neg (by intro h; rw [h] at hl; exact hw (List.length_eq_zero_iff.1 hl.symm)), if_neg (by rw [hl]; simp)]
  simp [scatter]

/-! ## Models whose parts treat the times one by one -/

theorem assign_rows {mask : List Bool} {ts : List K} (rows vals : K → List K)
    (hv : ∀ t, (vals t).length = mask.count true) :
    assignCols mask (ts.map rows) (ts.map vals) = .ok (ts.map fun t => scatter mask (rows t) (vals t)) := by
  unfold assignCols
  rw [if_pos]
  · congr 1
    simp only [List.zipWith_map_left, List.zipWith_map_right, List.zipWith_self]
  · refine ⟨by simp, ?_⟩
    intro row hrow
    obtain ⟨t, _, rfl⟩ := List.mem_map.1 hrow
    exact hv t

/-- Extrapolation of a row-wise compute_sed by a row-wise extrapolator is row-wise. -/
theorem sedExtrapolated_rows (m : SEDModel V W R K) (st : SState K) (hm : RowSed m st)
    (hex : ∀ ex, m.extrap = some ex → RowExt ex) (noKw kw : W) (ws : List K) :
    (∃ row : K → List K, (∀ t, (row t).length = ws.length) ∧
      ∀ ts, m.sedExtrapolated noKw ts ws st kw = .ok (ts.map row)) ∨
    ∃ e, ∀ ts, m.sedExtrapolated noKw ts ws st kw = .error e := by
  unfold SEDModel.sedExtrapolated
  cases npMin ws with
  | none => exact Or.inr ⟨_, fun _ => rfl⟩
  | some qlo =>
  cases npMax ws with
  | none => exact Or.inr ⟨_, fun _ => rfl⟩
  | some qhi =>
  simp only
  generalize (m.minwave st).getD qlo = lo
  generalize (m.maxwave st).getD qhi = hi
  by_cases hc : lo ≤ qlo ∧ qhi ≤ hi
  · simp only [if_pos hc]
    exact hm kw ws
  · simp only [if_neg hc]
    unfold SEDModel.extrapolated
    simp only
    generalize hq : (lo :: (ws.filter fun w => !decide (w < lo) && !decide (hi < w)) ++ [hi]) = q
    rcases hm noKw q with ⟨row, hl, hr⟩ | ⟨e, he⟩
    · simp only [hr]
      have hmid : ∀ t, ((row t).tail.dropLast).length = (ws.map fun w => !decide (w < lo) && !decide (hi < w)).count true := by
        intro t
        rw [count_map_true, List.length_dropLast, List.length_tail, hl, ← hq]
        simp
      simp only [List.map_map, Function.comp_def, assign_rows _ _ hmid]
      cases hext : m.extrap with
      | none => exact Or.inl ⟨_, by simp, fun ts => rfl⟩
      | some ex =>
        obtain ⟨G, hG1, hG2⟩ := hex ex hext
        simp only [hG2, column, List.map_map, Function.comp_def]
        simp only [assign_rows _ _ (show ∀ t, (G lo ((row t).getD 0 0) (ws.filter fun w => decide (w < lo))).length =
          (ws.map fun w => decide (w < lo)).count true by intro t; rw [hG1, count_map_true])]
        simp only [assign_rows _ _ (show ∀ t, (G hi ((row t).getLastD 0) (ws.filter fun w => decide (hi < w))).length =
          (ws.map fun w => decide (hi < w)).count true by intro t; rw [hG1, count_map_true])]
        exact Or.inl ⟨_, by simp, fun ts => rfl⟩
    · exact Or.inr ⟨e, fun ts => by rw [he]⟩

/-- A list of row-wise effects is row-wise. -/
theorem applyEffects_rows (p : Params K) (ws : List K) (es : List (Effect V R K)) (hes : ∀ e ∈ es, RowEffect e) :
    (∃ h : K → List K → List K, (∀ t row, (h t row).length = row.length) ∧
      ∀ ts r (rowf : K → List K), applyEffects p ts ws es r (ts.map rowf) = .ok (ts.map fun t => h t (rowf t), r)) ∨
    ∃ err, ∀ ts r (rowf : K → List K), applyEffects p ts ws es r (ts.map rowf) = .error err := by
  induction es with
  | nil => exact Or.inl ⟨fun _ row => row, fun _ _ => rfl, fun ts r rowf => rfl⟩
  | cons e es ih =>
    simp only [applyEffects]
    rcases hes e (by simp) p ws with ⟨h, hl, hh⟩ | ⟨err, herr⟩
    · simp only [hh]
      rcases ih (fun x hx => hes x (List.mem_cons_of_mem _ hx)) with ⟨h', hl', hh'⟩ | ⟨err, herr⟩
      · exact Or.inl ⟨fun t row => h' t (h t row), fun t row => by rw [hl', hl], fun ts r rowf => hh' ts r _⟩
      · exact Or.inr ⟨err, fun ts r rowf => herr ts r _⟩
    · simp only [herr]
      exact Or.inr ⟨err, fun _ _ _ => rfl⟩

/-- An SED model whose compute_sed, extrapolator and effects treat the times one by one does so as a
whole, redshifted or not. -/
theorem evaluateSingle_rows (m : SEDModel V W R K) (st : SState K) (hm : RowSed m st)
    (hex : ∀ ex, m.extrap = some ex → RowExt ex) (he : ∀ e ∈ m.restEffects ++ m.obsEffects, RowEffect e)
    (noKw kw : W) (r : R) : RowWise (fun ts ws r => m.evaluateSingle noKw ts ws st r kw) r := by
  intro ws
  unfold SEDModel.evaluateSingle localParams
  cases st.get? m.nodeString with
  | none => exact Or.inr ⟨_, fun _ => rfl⟩
  | some p =>
    simp only
    cases redshiftOf m.applyRedshift p with
    | error e => exact Or.inr ⟨e, fun _ => rfl⟩
    | ok zs =>
      simp only [restTimes_eq, restWaves_eq, scaled_eq]
      rcases sedExtrapolated_rows m st hm hex noKw kw (ws.map (frameWave zs)) with ⟨row, hl, hr⟩ | ⟨e, hr⟩
      · simp only [hr]
        rcases applyEffects_rows p (ws.map (frameWave zs)) m.restEffects
          (fun e h => he e (List.mem_append_left _ h)) with ⟨h, hl', hh⟩ | ⟨e, hh⟩
        · simp only [hh]
          rcases applyEffects_rows p ws m.obsEffects (fun e h => he e (List.mem_append_right _ h)) with ⟨h2, hl2, hh2⟩ | ⟨e, hh2⟩
          · left
            refine ⟨fun t => h2 t (((h (frameTime zs t) (row (frameTime zs t)))).map fun x => x * frameFactor zs), ?_, ?_⟩
            · intro t
              rw [hl2, List.length_map, hl', hl, List.length_map]
            · intro ts
              simp only [List.map_map, Function.comp_def]
              exact hh2 ts r (fun t => (h (frameTime zs t) (row (frameTime zs t))).map fun x => x * frameFactor zs)
          · right
            refine ⟨e, fun ts => ?_⟩
            simp only [List.map_map, Function.comp_def]
            exact hh2 ts r (fun t => (h (frameTime zs t) (row (frameTime zs t))).map fun x => x * frameFactor zs)
        · exact Or.inr ⟨e, fun ts => by rw [hh]⟩
      · exact Or.inr ⟨e, fun ts => by rw [hr]⟩

theorem eachSample_det {β : Type} (one : SState K → R → Except Err (β × R)) (r : R)
    (h : ∀ st res, one st r = .ok res → res.2 = r) : ∀ (sts : List (SState K)) (res : List β × R),
    eachSample one sts r = .ok res ↔ res.2 = r ∧ List.Forall₂ (fun st a => one st r = .ok (a, r)) sts res.1 := by
  intro sts
  induction sts with
  | nil =>
    intro res
    simp only [eachSample, Except.ok.injEq]
    constructor
    · rintro rfl; exact ⟨rfl, .nil⟩
    · rintro ⟨h1, h2⟩
      obtain ⟨l, r'⟩ := res
      simp only at h1 h2
      cases h2
      rw [h1]
  | cons st sts ih =>
    intro res
    simp only [eachSample]
    constructor
    · intro hres
      split at hres
      · cases hres
      · rename_i a r' ha
        have := h _ _ ha
        simp only at this
        subst this
        split at hres
        · cases hres
        · rename_i rest r2 hrest
          obtain ⟨e1, e2⟩ := (ih _).1 hrest
          cases hres
          exact ⟨e1, .cons ha e2⟩
    · rintro ⟨h1, h2⟩
      obtain ⟨l, r'⟩ := res
      simp only at h1 h2
      cases h2 with
      | cons ha hr =>
        rw [ha]
        simp only
        have := (ih (_, r')).2 ⟨h1, hr⟩
        rw [this]

/-- C31 for SED models. Let compute_sed, the extrapolator and the effects treat the times one by one and draw
no random numbers. Then for every passband group, list of samples, times and filters, evaluate_bandfluxes
succeeds exactly when there are as many filters as times and, for every sample and every observation, the
request of that one observation for that one sample succeeds; row s, entry i of the result is the value
of that request. -/
theorem C31_sed_model (m : SEDModel V W R K) (noKw : W) (states : List (SState K)) (hm : ∀ st ∈ states, RowSed m st)
    (hex : ∀ ex, m.extrap = some ex → RowExt ex) (he : ∀ e ∈ m.restEffects ++ m.obsEffects, RowEffect e)
    (r : R) (g : PassbandGroup K) (times : List K) (filters : List Name) (out : List (List K)) :
    evaluateBandfluxes (m.evaluateBandfluxesSingle noKw) (.group g) times (some filters) states r = .ok (out, r) ↔
      filters.length = times.length ∧ out.length = states.length ∧
      ∀ (s : Nat) st row, states[s]? = some st → out[s]? = some row → row.length = times.length ∧
        ∀ (i : Nat) t f x, times[i]? = some t → filters[i]? = some f → row[i]? = some x →
          evaluateBandfluxes (m.evaluateBandfluxesSingle noKw) (.group g) [t] (some [f]) [st] r = .ok ([[x]], r) := by
  have hrw : ∀ st ∈ states, RowWise (fun ts ws r => m.evaluateSingle noKw ts ws st r noKw) r :=
    fun st hst => evaluateSingle_rows m st (hm st hst) hex he noKw noKw r
  have hone : ∀ st (t : K) (f : Name) (x : K),
      evaluateBandfluxes (m.evaluateBandfluxesSingle noKw) (.group g) [t] (some [f]) [st] r = .ok ([[x]], r) ↔
        m.evaluateBandfluxesSingle noKw g [t] [f] st r = .ok ([x], r) := by
    intro st t f x
    simp only [evaluateBandfluxes, BandArg.resolve, List.length_cons, List.length_nil, ne_eq, not_true_eq_false, if_false,
      eachSample]
    cases m.evaluateBandfluxesSingle noKw g [t] [f] st r with
    | error e => simp
    | ok q => simp [Prod.ext_iff]
  simp only [hone]
  simp only [evaluateBandfluxes, BandArg.resolve]
  by_cases hlen : filters.length = times.length
  · simp only [ne_eq, hlen, not_true_eq_false, if_false, true_and]
    have hdet : ∀ (sts : List (SState K)), (∀ st ∈ sts, st ∈ states) → ∀ o : List (List K),
        eachSample (m.evaluateBandfluxesSingle noKw g times filters) sts r = .ok (o, r) ↔
          List.Forall₂ (fun st a => m.evaluateBandfluxesSingle noKw g times filters st r = .ok (a, r)) sts o := by
      intro sts
      induction sts with
      | nil =>
        intro _ o
        simp only [eachSample, Except.ok.injEq, Prod.mk.injEq, and_true]
        constructor
        · rintro rfl; exact .nil
        · intro h; cases h; rfl
      | cons st sts ih =>
        intro hs o
        have ih' := ih (fun x hx => hs x (List.mem_cons_of_mem _ hx))
        simp only [eachSample]
        constructor
        · intro h
          split at h
          · cases h
          · rename_i a r' ha
            have hr' : r' = r := by
              unfold SEDModel.evaluateBandfluxesSingle bandfluxesSingle at ha
              exact ((loop_spec (hrw st (hs st (by simp))) g times filters hlen (npUnique filters) (times.map fun _ => 0)
                (nodup_npUnique _) (fun f hf => (mem_npUnique _ _).1 hf) (by simp)).1 _ ha).1
            subst hr'
            split at h
            · cases h
            · rename_i rest r2 hrest
              simp only [Except.ok.injEq, Prod.mk.injEq] at h
              obtain ⟨rfl, rfl⟩ := h
              exact .cons ha ((ih' _).1 hrest)
        · intro h
          cases h with
          | cons ha hr =>
            rw [ha]
            simp only
            rw [(ih' _).2 hr]
    rw [hdet states (fun _ h => h) out, List.forall₂_iff_get]
    constructor
    · rintro ⟨h1, h2⟩
      refine ⟨h1.symm, ?_⟩
      intro s st row hst hrow
      obtain ⟨hs, rfl⟩ := List.getElem?_eq_some_iff.1 hst
      obtain ⟨ho, rfl⟩ := List.getElem?_eq_some_iff.1 hrow
      exact (C31_independent _ r (hrw _ (List.getElem_mem hs)) g times filters hlen _).1 (h2 s hs ho)
    · rintro ⟨h1, h2⟩
      refine ⟨h1.symm, ?_⟩
      intro s hs ho
      exact (C31_independent _ r (hrw _ (List.getElem_mem hs)) g times filters hlen _).2
        (h2 s _ _ (List.getElem?_eq_getElem hs) (List.getElem?_eq_getElem ho))
  · simp only [ne_eq, hlen, not_false_eq_true, if_true, false_and, iff_false]
    intro h; cases h

/-- C31: a group without filters, or filters of another length than times, raise ValueError; a single passband
stands for the group of that band, with its own filter name for every time when no filters are given. -/
theorem C31_arguments (one : PassbandGroup K → List K → List Name → SState K → R → Except Err (List K × R))
    (g : PassbandGroup K) (pb : Passband K) (times : List K) (filters : List Name) (states : List (SState K)) (r : R) :
    evaluateBandfluxes one (.group g) times none states r = .error .valueError ∧
    (filters.length ≠ times.length → evaluateBandfluxes one (.group g) times (some filters) states r = .error .valueError) ∧
    ∀ gpb, PassbandGroup.init [pb] none = .ok gpb →
      evaluateBandfluxes one (.passband pb) times (some filters) states r =
        evaluateBandfluxes one (.group gpb) times (some filters) states r ∧
      evaluateBandfluxes one (.passband pb) times none states r =
        evaluateBandfluxes one (.group gpb) times (some (times.map fun _ => pb.filterName)) states r := by
  refine ⟨rfl, ?_, ?_⟩
  · intro h
    simp [evaluateBandfluxes, BandArg.resolve, h]
  · intro gpb h
    simp only [evaluateBandfluxes, BandArg.resolve, h]
    simp

/-- The constant-dimming effect treats the times one by one, so models with it are covered by
`C31_sed_model`. -/
theorem constantDimming_rows (s : V) (rest : Bool) : RowEffect (constantDimming s rest : Effect V R K) := by
  intro p ws
  unfold constantDimming
  simp only
  cases fluxFraction p with
  | error e => exact Or.inr ⟨e, fun _ _ _ => rfl⟩
  | ok f =>
    refine Or.inl ⟨fun _ row => row.map fun x => x * f, by simp, ?_⟩
    intro ts r rowf
    simp [List.map_map, Function.comp_def]

end LCL.BandfluxProps
