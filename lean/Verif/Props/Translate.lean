import Verif.Lemmas.Translate
import Verif.Model.BasicModels
import Verif.Model.Salt2Files
import Verif.Props.Salt2
import Verif.Model.SniaSurvey
import Verif.Model.BinaryStar
import Verif.Model.TemplateSed
import Verif.Model.EffectLib
import Verif.Props.EndToEnd

/-!
# C132: a simulation does not depend on the calendar

If every visit of every survey and every time parameter of every object are moved by the same number of days, `simulate_lightcurves` gives the same fluxes, errors and
counts, with the reported times moved by the same number of days.
-/

namespace LCL.TranslateProps
open LCL LCL.Translate LCL.TranslateLemmas LCL.EndToEnd LCL.ObsSpec LCL.BinaryStar

variable {R : Type} {Δ : ℝ}

/-! ### The tables -/

theorem time_column {t : ObsTable} (hb : Built t) (ht : t.cols.has "time".toList = true) : ∃ c, t.cols.get? "time".toList = some c ∧ t.tree.length ≤ c.length := by
  obtain ⟨c, hc⟩ := Option.isSome_iff_exists.1 ht
  refine ⟨c, hc, ?_⟩
  obtain ⟨hwf, hf⟩ := ObsLemmas.built_spec hb
  have hlen : c.length = t.len := hwf.1 _ (Dict.mem_of_get? hc)
  obtain ⟨ras, decs, -, -, h1, h2, ht⟩ := hf
  rw [ht, List.length_zipWith, hlen, h1, h2, Nat.min_self]

theorem pickRows_later {k : Name} (h : k ≠ "time".toList) (t : ObsTable) (rows : List Nat) : pickRows (laterTable Δ t) k rows = pickRows t k rows := by
  unfold pickRows
  rw [numCol_ne h]

theorem surveyNum_later (t : ObsTable) (k : Name) : surveyNum (laterTable Δ t) k = surveyNum t k := rfl

theorem finiteErrors_later (k : Kind) (t : ObsTable) : finiteErrors k (laterTable Δ t) = finiteErrors k t := by
  have h : errorOf k (laterTable Δ t) = errorOf k t := by
    funext p rows
    cases k
    · show opsimError _ _ _ = opsimError _ _ _
      unfold opsimError
      simp only [surveyNum_later]
      rw [pickRows_later (by decide), pickRows_later (by decide), pickRows_later (by decide), pickRows_later (by decide), pickRows_later (by decide)]
    · show ztfError _ _ _ = ztfError _ _ _
      unfold ztfError
      simp only [surveyNum_later]
      rw [pickRows_later (by decide), pickRows_later (by decide), pickRows_later (by decide), pickRows_later (by decide)]
    · show romanError _ _ _ = romanError _ _ _
      unfold romanError
      simp only [surveyNum_later]
      rw [pickRows_later (by decide), pickRows_later (by decide), pickRows_later (by decide), pickRows_later (by decide), pickRows_later (by decide)]
  unfold finiteErrors
  rw [h]

/-! ### The evaluation of a model -/

theorem get_laterParams (keys : List Name) (p : Params ℝ) (k : Name) : (laterParams Δ keys p).get? k = if k ∈ keys then (p.get? k).map (laterVal Δ) else p.get? k := by
  induction p with
  | nil => simp [laterParams]
  | cons q p ih =>
    obtain ⟨a, v⟩ := q
    replace ih : Dict.get? (List.map (fun q => (q.1, if q.1 ∈ keys then laterVal Δ q.2 else q.2)) p) k = _ := ih
    simp only [laterParams, List.map_cons, Dict.get?_cons, ih]
    by_cases h : a = k
    · subst h
      by_cases hk : a ∈ keys <;> simp [hk]
    · simp [h]

theorem localParams_later (node : Name) (keys : List Name) (st : SState ℝ) : localParams (laterNode Δ node keys st) node = (localParams st node).map (laterParams Δ keys) := by
  unfold localParams laterNode
  rw [get_mapAt_self]
  cases st.get? node <;> rfl

theorem redshiftOf_later {keys : List Name} (ht : t0Key ∈ keys) (hz : redshiftKey ∉ keys) (b : Bool) (p : Params ℝ) :
    redshiftOf b (laterParams Δ keys p) = (redshiftOf b p).map fun o => o.map fun q => (q.1, q.2 + Δ) := by
  unfold redshiftOf
  rw [get_laterParams, get_laterParams, if_neg hz, if_pos ht]
  cases b with
  | false => rfl
  | true =>
    rw [if_pos rfl, if_pos rfl]
    cases p.get? redshiftKey with
    | none => rfl
    | some v =>
      cases v with
      | none => rfl
      | num z =>
        dsimp only
        split
        · rfl
        · cases p.get? t0Key with
          | none => rfl
          | some w => cases w <;> rfl
      | str x =>
        dsimp only
        cases p.get? t0Key with
        | none => rfl
        | some w => cases w <;> rfl

/-- The rest frame, moved. -/
def laterFrame (Δ : ℝ) (zs : Option (ℝ × ℝ)) : Option (ℝ × ℝ) := zs.map fun q => (q.1, q.2 + Δ)

theorem restTimes_later (zs : Option (ℝ × ℝ)) (ts : List ℝ) : restTimesOf (laterFrame Δ zs) (later Δ ts) = later Δ (restTimesOf zs ts) := by
  cases zs with
  | none => rfl
  | some q =>
    simp only [laterFrame, Option.map, restTimesOf, later, List.map_map]
    refine List.map_congr_left fun t _ => ?_
    simp only [Function.comp, obsToRestTime]
    have : t + Δ - (q.2 + Δ) = t - q.2 := by ring
    rw [this]
    ring

theorem restWaves_later (zs : Option (ℝ × ℝ)) (ws : List ℝ) : restWavesOf (laterFrame Δ zs) ws = restWavesOf zs ws := by cases zs <;> rfl

theorem scaleBack_later (zs : Option (ℝ × ℝ)) (a : Mat ℝ) : scaleBack (laterFrame Δ zs) a = scaleBack zs a := by cases zs <;> rfl

variable {V W : Type}

theorem effects_later {keys : List Name} (p : Params ℝ) (ts ws : List ℝ) : ∀ (es : List (Effect V R ℝ)) (r : R) (a : Mat ℝ), (∀ e ∈ es, AnchoredEffect keys e) →
    applyEffects (laterParams Δ keys p) (later Δ ts) ws es r a = applyEffects p ts ws es r a
  | [], _, _, _ => rfl
  | e :: es, r, a, h => by
    simp only [applyEffects]
    rw [h e (List.mem_cons_self ..)]
    cases e.apply p ts ws r a with
    | error e => rfl
    | ok q => exact effects_later p ts ws es q.2 q.1 fun e he => h e (List.mem_cons_of_mem _ he)

theorem sedExtrapolated_later {keys : List Name} {m : SEDModel V W R ℝ} {st : SState ℝ} (h : Anchored keys m st) (noKw kw : W) (ts ws : List ℝ) :
    m.sedExtrapolated noKw (later Δ ts) ws (laterNode Δ m.nodeString keys st) kw = m.sedExtrapolated noKw ts ws st kw := by
  unfold SEDModel.sedExtrapolated SEDModel.extrapolated
  have e : ((later Δ ts).map fun _ => ws.map fun _ => (0 : ℝ)) = ts.map fun _ => ws.map fun _ => (0 : ℝ) := by
    unfold later
    rw [List.map_map]
    rfl
  simp only [h.sed, h.lo, h.hi, e]

theorem evaluateSingle_later {keys : List Name} {m : SEDModel V W R ℝ} {st : SState ℝ} (h : Anchored keys m st) (noKw kw : W) (ts ws : List ℝ) (r : R) :
    m.evaluateSingle noKw (later Δ ts) ws (laterNode Δ m.nodeString keys st) r kw = m.evaluateSingle noKw ts ws st r kw := by
  unfold SEDModel.evaluateSingle
  rw [localParams_later]
  cases localParams st m.nodeString with
  | error e => rfl
  | ok p =>
    dsimp only [Except.map]
    rw [redshiftOf_later h.t0 h.redshift]
    cases redshiftOf m.applyRedshift p with
    | error e => rfl
    | ok zs =>
      dsimp only [Except.map]
      have hf : (zs.map fun q : ℝ × ℝ => (q.1, q.2 + Δ)) = laterFrame Δ zs := rfl
      rw [hf, restTimes_later, restWaves_later, sedExtrapolated_later h]
      cases m.sedExtrapolated noKw (restTimesOf zs ts) (restWavesOf zs ws) st kw with
      | error e => rfl
      | ok a =>
        dsimp only
        rw [effects_later p _ _ _ _ _ h.rest]
        cases applyEffects p (restTimesOf zs ts) (restWavesOf zs ws) m.restEffects r a with
        | error e => rfl
        | ok q =>
          obtain ⟨a, r⟩ := q
          dsimp only
          rw [effects_later p _ _ _ _ _ h.obs, scaleBack_later]

theorem bandfluxLoop_later {e e' : List ℝ → List ℝ → R → Except Err (Mat ℝ × R)} (he : ∀ ts ws r, e' (later Δ ts) ws r = e ts ws r) (g : PassbandGroup ℝ) (ts : List ℝ)
    (fs : List Name) : ∀ (l : List Name) (r : R) (out : List ℝ), bandfluxLoop e' g (later Δ ts) fs l r out = bandfluxLoop e g ts fs l r out
  | [], _, _ => rfl
  | f :: l, r, out => by
    simp only [bandfluxLoop]
    cases g.getItem f with
    | error e => rfl
    | ok pb =>
      dsimp only
      have hg : gather (fs.map fun x => decide (x = f)) (later Δ ts) = later Δ (gather (fs.map fun x => decide (x = f)) ts) := gather_map _ _ _
      rw [hg, he]
      cases e (gather (fs.map fun x => decide (x = f)) ts) pb.waves r with
      | error e => rfl
      | ok q =>
        obtain ⟨sed, r⟩ := q
        dsimp only
        cases pb.bandflux sed with
        | error e => rfl
        | ok v => exact bandfluxLoop_later he g ts fs l r _

theorem evalModel_later {keys : List Name} {m : SEDModel V W R ℝ} {st : SState ℝ} (h : Anchored keys m st) (noKw : W) (g : PassbandGroup ℝ) (ts : List ℝ) (fs : List Name) (r : R) :
    evalModel m noKw g (later Δ ts) fs (laterNode Δ m.nodeString keys st) r = evalModel m noKw g ts fs st r := by
  have hz : ((later Δ ts).map fun _ => (0 : ℝ)) = ts.map fun _ => (0 : ℝ) := by
    unfold later
    rw [List.map_map]
    rfl
  have one : m.evaluateBandfluxesSingle noKw g (later Δ ts) fs (laterNode Δ m.nodeString keys st) r = m.evaluateBandfluxesSingle noKw g ts fs st r := by
    unfold SEDModel.evaluateBandfluxesSingle bandfluxesSingle
    rw [hz]
    exact bandfluxLoop_later (fun ts ws r => evaluateSingle_later h noKw noKw ts ws r) g ts fs _ r _
  have hl : (later Δ ts).length = ts.length := by simp [later]
  unfold evalModel evaluateBandfluxes BandArg.resolve
  dsimp only
  rw [hl]
  split
  · rename_i e h'
    split at h' <;> rename_i hlen
    · rw [if_pos hlen]; exact h'.symm ▸ rfl
    · rw [if_neg hlen]
      simp only [eachSample, one] at h' ⊢
      rw [h']
  · rename_i row r' h'
    split at h' <;> rename_i hlen
    · cases h'
    · rw [if_neg hlen]
      simp only [eachSample, one] at h' ⊢
      rw [h']
  · rename_i q hq h'
    split at h' <;> rename_i hlen
    · cases h'
    · rw [if_neg hlen]
      simp only [eachSample, one] at h' ⊢
      rw [h']
      split
      · rename_i h; cases h
      · rename_i h; cases h; exact (hq _ _ rfl).elim
      · rfl

/-! ### The models of the library -/

theorem numArg_later (keys : List Name) (p : Params ℝ) (k : String) :
    numArg (laterParams Δ keys p) k = if k.toList ∈ keys then (numArg p k).map (fun x => x + Δ) else numArg p k := by
  unfold numArg
  rw [get_laterParams]
  by_cases h : k.toList ∈ keys
  · rw [if_pos h, if_pos h]
    cases p.get? k.toList with
    | none => rfl
    | some v => cases v <;> rfl
  · rw [if_neg h, if_neg h]

theorem numArg_ne {keys : List Name} {k : String} (h : k.toList ∉ keys) (p : Params ℝ) : numArg (laterParams Δ keys p) k = numArg p k := by
  rw [numArg_later, if_neg h]

theorem numArg_in {keys : List Name} {k : String} (h : k.toList ∈ keys) (p : Params ℝ) : numArg (laterParams Δ keys p) k = (numArg p k).map fun x => x + Δ := by
  rw [numArg_later, if_pos h]

/-- Only t0 is a time. -/
def onlyT0 : List Name := [t0Key]

theorem plain_anchored {keys : List Name} {node : Name} {compute : Kw ℝ → Params ℝ → List ℝ → List ℝ → Except Err (Mat ℝ)} {lo hi : Option ℝ} (ht : t0Key ∈ keys)
    (hz : redshiftKey ∉ keys) {st : SState ℝ}
    (h : ∀ p, st.get? node = some p → ∀ Δ kw ts ws, compute kw (laterParams Δ keys p) (later Δ ts) ws = compute kw p ts ws) :
    Anchored keys (plainSed node compute lo hi : SEDModel V (Kw ℝ) R ℝ) st := by
  refine ⟨ht, hz, ?_, fun _ => rfl, fun _ => rfl, fun e he => (List.not_mem_nil he).elim, fun e he => (List.not_mem_nil he).elim⟩
  intro Δ kw ts ws
  unfold plainSed
  dsimp only
  rw [localParams_later]
  unfold localParams
  cases hp : st.get? node with
  | none => rfl
  | some p => exact h p hp Δ kw ts ws

theorem map_const_later {β : Type} (c : β) (ts : List ℝ) : ((later Δ ts).map fun _ => c) = ts.map fun _ => c := by
  unfold later
  rw [List.map_map]
  rfl

/-- **C132** Constant, step, sine, linear and Gaussian-galaxy models know no calendar; the step's second time is a time parameter. -/
theorem C132_basic_models (node : Name) (lo hi : Option ℝ) (st : SState ℝ) :
    Anchored onlyT0 (constantModel node : SEDModel V (Kw ℝ) R ℝ) st ∧ Anchored [t0Key, "t1".toList] (stepModel node : SEDModel V (Kw ℝ) R ℝ) st ∧
    Anchored onlyT0 (sinModel node : SEDModel V (Kw ℝ) R ℝ) st ∧ Anchored onlyT0 (linearModel node lo hi : SEDModel V (Kw ℝ) R ℝ) st ∧
    Anchored onlyT0 (galaxyModel node : SEDModel V (Kw ℝ) R ℝ) st := by
  refine ⟨plain_anchored (by decide) (by decide) ?_, plain_anchored (by decide) (by decide) ?_, plain_anchored (by decide) (by decide) ?_,
    plain_anchored (by decide) (by decide) ?_, plain_anchored (by decide) (by decide) ?_⟩
  · intro p _ Δ kw ts ws
    unfold constantSed
    rw [numArg_ne (by decide)]
    cases numArg p "brightness" with
    | error e => rfl
    | ok b => exact congrArg Except.ok (map_const_later _ ts)
  · intro p _ Δ kw ts ws
    unfold stepSed
    rw [numArg_in (by decide), numArg_in (by decide), numArg_ne (by decide)]
    cases numArg p "t0" with
    | error e => rfl
    | ok t0 =>
      dsimp only [Except.map]
      cases numArg p "t1" with
      | error e => rfl
      | ok t1 =>
        dsimp only
        cases numArg p "brightness" with
        | error e => rfl
        | ok b => simp [later, Function.comp_def]
  · intro p _ Δ kw ts ws
    unfold sinSed
    rw [numArg_ne (by decide), numArg_in (by decide), numArg_ne (by decide), numArg_ne (by decide)]
    cases numArg p "frequency" with
    | error e => rfl
    | ok f =>
      dsimp only
      cases numArg p "t0" with
      | error e => rfl
      | ok t0 =>
        dsimp only [Except.map]
        cases numArg p "brightness" with
        | error e => rfl
        | ok b =>
          dsimp only
          cases numArg p "amplitude" with
          | error e => rfl
          | ok a => simp [later, Function.comp_def]
  · intro p _ Δ kw ts ws
    unfold linearSed
    rw [numArg_ne (by decide), numArg_ne (by decide)]
    cases numArg p "linear_base" with
    | error e => rfl
    | ok b =>
      dsimp only
      cases numArg p "linear_scale" with
      | error e => rfl
      | ok s => exact congrArg Except.ok (map_const_later _ ts)
  · intro p _ Δ kw ts ws
    unfold galaxySed galaxyDist
    rw [numArg_ne (by decide), numArg_ne (by decide), numArg_ne (by decide), numArg_ne (by decide)]
    simp only [map_const_later]

/-- **C132** Static spectra know no calendar. -/
theorem C132_static (node : Name) (tables : List (SedTable ℝ)) (st : SState ℝ) : Anchored onlyT0 (staticSedModel node tables : SEDModel V (Kw ℝ) R ℝ) st := by
  have hsel : ∀ Δ (st : SState ℝ), selectedIdx (laterNode Δ node onlyT0 st) node tables.length = selectedIdx st node tables.length := by
    intro Δ st
    unfold selectedIdx
    rw [localParams_later]
    cases localParams st node with
    | error e => rfl
    | ok p =>
      dsimp only [Except.map]
      rw [numArg_ne (by decide)]
  refine ⟨by decide, by decide, ?_, ?_, ?_, fun e he => (List.not_mem_nil he).elim, fun e he => (List.not_mem_nil he).elim⟩
  · intro Δ kw ts ws
    simp only [staticSedModel, hsel, map_const_later]
  · intro Δ
    simp only [staticSedModel, hsel]
  · intro Δ
    simp only [staticSedModel, hsel]

theorem salt2_rows (m0 m1 : ℝ → ℝ → ℝ) (law : Salt2.ColorLaw ℝ) (x0 x1 c t0 : ℝ) (ts ws : List ℝ) : ∃ a a',
    Salt2.computeSed m0 m1 law x0 x1 c t0 ts ws = .ok a ∧ Salt2.computeSed m0 m1 law x0 x1 c (t0 + Δ) (later Δ ts) ws = .ok a' ∧
    Salt2Files.toRows ts.length ws.length a' = Salt2Files.toRows ts.length ws.length a := by
  obtain ⟨a, ha, hs⟩ := C77_spectrum m0 m1 law x0 x1 c t0 ts ws
  obtain ⟨a', ha', hs'⟩ := C77_spectrum m0 m1 law x0 x1 c (t0 + Δ) (later Δ ts) ws
  refine ⟨a, a', ha, ha', ?_⟩
  unfold Salt2Files.toRows
  refine List.map_congr_left fun i hi => List.map_congr_left fun j hj => ?_
  have hi' := List.mem_range.1 hi
  have hj' := List.mem_range.1 hj
  have e1 := hs.2 i j ts[i] ws[j] (List.getElem?_eq_getElem hi') (List.getElem?_eq_getElem hj')
  have e2 := hs'.2 i j (ts[i] + Δ) ws[j] (by simp [later, hi']) (List.getElem?_eq_getElem hj')
  have e : ts[i] + Δ - (t0 + Δ) = ts[i] - t0 := by ring
  rw [e] at e2
  have := e2.trans e1.symm
  have hp : (10 : ℝ) ^ 35 ≠ 0 := by positivity
  field_simp at this
  exact this

/-- **C132** SALT2 models read from files know no calendar. -/
theorem C132_salt2 (d : Salt2Files.Data) (node : Name) (ex : Option (ℝ → List ℝ → List ℝ → Mat ℝ)) (st : SState ℝ) : Anchored onlyT0 (Salt2Files.model d node ex : SEDModel V W R ℝ) st := by
  refine ⟨by decide, by decide, ?_, fun _ => rfl, fun _ => rfl, fun e he => (List.not_mem_nil he).elim, fun e he => (List.not_mem_nil he).elim⟩
  intro Δ kw ts ws
  show Salt2Files.computeSed d node (laterNode Δ node onlyT0 st) (later Δ ts) ws = Salt2Files.computeSed d node st ts ws
  unfold Salt2Files.computeSed
  rw [localParams_later]
  cases localParams st node with
  | error e => rfl
  | ok p =>
    dsimp only [Except.map]
    rw [numArg_in (by decide), numArg_ne (by decide), numArg_ne (by decide), numArg_ne (by decide)]
    have hl : (later Δ ts).length = ts.length := by simp [later]
    cases numArg p "t0" with
    | error e => rfl
    | ok t0 =>
      dsimp only [Except.map]
      rw [hl]
      cases numArg p "x0" with
      | error e => rfl
      | ok x0 =>
        cases numArg p "x1" with
        | error e => rfl
        | ok x1 =>
          cases numArg p "c" with
          | error e => rfl
          | ok c =>
            dsimp only
            obtain ⟨a, a', ha, ha', e⟩ := salt2_rows (Δ := Δ) (Salt2Files.value d.m0) (Salt2Files.value d.m1) d.law x0 x1 c t0 ts ws
            rw [ha, ha']
            exact congrArg Except.ok e

/-- **C132** Spline models of an object that has a reference time know no calendar. -/
theorem C132_spline (node : Name) (spline : ℝ → ℝ → ℝ) (gridWaves : List ℝ) {st : SState ℝ} (ht : ∀ p, st.get? node = some p → ∃ t0, p.get? t0Key = some (.num t0)) :
    Anchored onlyT0 (splineModel node spline gridWaves : SEDModel V (Kw ℝ) R ℝ) st := by
  refine plain_anchored (by decide) (by decide) ?_
  intro p hp Δ kw ts ws
  obtain ⟨t0, h0⟩ := ht p hp
  replace h0 : p.get? "t0".toList = some (.num t0) := h0
  have h1 : (laterParams Δ onlyT0 p).get? "t0".toList = some (.num (t0 + Δ)) := by
    rw [get_laterParams, if_pos (by decide), h0]
    rfl
  unfold splineSed
  rw [h0, h1]
  dsimp only
  rw [numArg_ne (by decide)]
  have e : ((later Δ ts).map fun t => t - (t0 + Δ)) = ts.map fun t => t - t0 := by
    unfold later
    rw [List.map_map]
    refine List.map_congr_left fun t _ => ?_
    simp only [Function.comp]
    ring
  rw [e]

theorem snParams_later {keys : List Name} (p : Params ℝ) : ∀ (ks : List Name), (∀ k ∈ ks, k ∉ keys) → Sn.snParams (laterParams Δ keys p) ks = Sn.snParams p ks
  | [], _ => rfl
  | k :: ks, h => by
    unfold Sn.snParams
    rw [get_laterParams, if_neg (h k (List.mem_cons_self ..)), snParams_later p ks fun k hk => h k (List.mem_cons_of_mem _ hk)]

theorem update_later {lib : Sn.Lib} {m : Sn.Obj} (hn : t0Key ∉ m.named) (st : SState ℝ) : Sn.update lib m (laterNode Δ m.node onlyT0 st) = Sn.update lib m st := by
  unfold Sn.update
  rw [localParams_later]
  cases localParams st m.node with
  | error e => rfl
  | ok p =>
    dsimp only [Except.map]
    rw [snParams_later p m.named fun k hk he => hn (by rw [← List.mem_singleton.1 he]; exact hk)]

theorem direct_later (lib : Sn.Lib) (m : Sn.Obj) (p : Params ℝ) (ts ws : List ℝ) : Sn.direct lib m (laterParams Δ onlyT0 p) (later Δ ts) ws = Sn.direct lib m p ts ws := by
  unfold Sn.direct Sn.t0Of
  rw [get_laterParams, if_pos (by decide)]
  cases p.get? t0Key with
  | none => rfl
  | some v =>
    cases v with
    | none => rfl
    | str s => rfl
    | num t0 =>
      dsimp only [Option.map, laterVal]
      have e : ((later Δ ts).map fun t => t - (t0 + Δ)) = ts.map fun t => t - t0 := by
        unfold later
        rw [List.map_map]
        refine List.map_congr_left fun t _ => ?_
        simp only [Function.comp]
        ring
      have hl : (later Δ ts).length = ts.length := by simp [later]
      rw [e, hl]

theorem update_node (lib : Sn.Lib) (m : Sn.Obj) (st : SState ℝ) : (Sn.update lib m st).1.node = m.node ∧ (Sn.update lib m st).1.named = m.named := by
  unfold Sn.update
  split
  · exact ⟨rfl, rfl⟩
  · split <;> exact ⟨rfl, rfl⟩

theorem inner_later {lib : Sn.Lib} {m : Sn.Obj} (hn : t0Key ∉ m.named) (st : SState ℝ) (ts ws : List ℝ) :
    (Sn.inner lib m (laterNode Δ m.node onlyT0 st) (later Δ ts) ws).2 = (Sn.inner lib m st ts ws).2 := by
  unfold Sn.inner
  rw [localParams_later, update_later hn]
  cases localParams st m.node with
  | error e => rfl
  | ok p =>
    dsimp only [Except.map]
    cases Sn.update lib m st with
    | mk m' o =>
      cases o with
      | some e => rfl
      | none =>
        dsimp only
        split
        · rfl
        · exact direct_later lib m' p ts ws

/-- **C132** The sncosmo sources (among them SALT2 and SALT3) know no calendar, whatever their extrapolation. (t0 is not a parameter of a sncosmo source: the wrapper subtracts it.) -/
theorem C132_sncosmo {ρ : Type} (lib : Sn.Lib) {m : Sn.Obj} (hn : t0Key ∉ m.named) (st : SState ℝ) : Anchored onlyT0 (SniaSurvey.sniaModel (ρ := ρ) lib m) st := by
  refine ⟨by decide, by decide, ?_, fun _ => rfl, fun _ => rfl, fun e he => (List.not_mem_nil he).elim, fun e he => (List.not_mem_nil he).elim⟩
  intro Δ kw ts ws
  show (Sn.compute lib m (laterNode Δ m.node onlyT0 st) (later Δ ts) ws).2 = (Sn.compute lib m st ts ws).2
  unfold Sn.compute
  rw [localParams_later, update_later hn]
  have hu := update_node lib m st
  cases localParams st m.node with
  | error e => rfl
  | ok p =>
    dsimp only [Except.map]
    cases hm : Sn.update lib m st with
    | mk m' o =>
      rw [hm] at hu
      cases o with
      | some e => rfl
      | none =>
        dsimp only at hu ⊢
        split
        · have ha : Anchored onlyT0 (Sn.asSED lib m' fun st ts ws => (Sn.inner lib m' st ts ws).2) st := by
            refine ⟨by decide, by decide, ?_, fun _ => rfl, fun _ => rfl, fun e he => (List.not_mem_nil he).elim, fun e he => (List.not_mem_nil he).elim⟩
            intro Δ kw ts ws
            exact inner_later (by rw [hu.2]; exact hn) st ts ws
          have := sedExtrapolated_later (Δ := Δ) ha () () ts ws
          have hnode : (Sn.asSED lib m' fun st ts ws => (Sn.inner lib m' st ts ws).2).nodeString = m.node := hu.1
          rw [hnode] at this
          exact this
        · exact direct_later lib m' p ts ws

theorem numParam_later (keys : List Name) (p : Params ℝ) (k : Name) : numParam (laterParams Δ keys p) k = if k ∈ keys then (numParam p k).map (fun x => x + Δ) else numParam p k := by
  unfold numParam
  rw [get_laterParams]
  by_cases h : k ∈ keys
  · rw [if_pos h, if_pos h]
    cases p.get? k with
    | none => rfl
    | some v => cases v <;> rfl
  · rw [if_neg h, if_neg h]

/-- **C132** Periodic models whose phases are read from moved parameters know no calendar; the eclipsing binary is one. -/
theorem C132_periodic (node : Name) {kw : W} {st : SState ℝ} {ev : W → SState ℝ → List (Option ℝ) → List ℝ → Except Err (Mat ℝ)}
    (hev : ∀ ph ws, ev kw (laterNode Δ node onlyT0 st) ph ws = ev kw st ph ws) (ts ws : List ℝ) :
    periodicSed node ev kw (laterNode Δ node onlyT0 st) (later Δ ts) ws = periodicSed node ev kw st ts ws := by
  unfold periodicSed
  rw [localParams_later]
  cases localParams st node with
  | error e => rfl
  | ok p =>
    dsimp only [Except.map]
    rw [numParam_later, numParam_later, if_neg (by decide), if_pos (by decide)]
    cases numParam p "period".toList with
    | error e => rfl
    | ok per =>
      dsimp only
      cases numParam p t0Key with
      | error e => rfl
      | ok t0 =>
        dsimp only [Except.map]
        have e : (later Δ ts).map (phaseOf (t0 + Δ) per) = ts.map (phaseOf t0 per) := by
          unfold later
          rw [List.map_map]
          refine List.map_congr_left fun t _ => ?_
          simp only [Function.comp, phaseOf]
          have : t + Δ - (t0 + Δ) = t - t0 := by ring
          rw [this]
        rw [e, hev]

theorem C132_binary (node : Name) (kw : W) (st : SState ℝ) (ts ws : List ℝ) : binarySed node kw (laterNode Δ node onlyT0 st) (later Δ ts) ws = binarySed node kw st ts ws := by
  unfold binarySed
  apply C132_periodic
  intro ph ws
  have hp : ∀ (p : Params ℝ) (k : Name), k ∉ onlyT0 → numParam (laterParams Δ onlyT0 p) k = numParam p k := fun p k hk => by rw [numParam_later, if_neg hk]
  have h1 : getNum (laterNode Δ node onlyT0 st) node "distance".toList = getNum st node "distance".toList := by
    unfold getNum laterNode
    rw [get_mapAt_self]
    cases st.get? node with
    | none => rfl
    | some p =>
      dsimp only [Option.map]
      rw [get_laterParams, if_neg (by decide)]
  have h2 : binaryLums node (laterNode Δ node onlyT0 st) = binaryLums node st := by
    funext ph ws
    unfold binaryLums
    rw [localParams_later]
    cases localParams st node with
    | error e => rfl
    | ok p =>
      simp only [Except.map, bind, Except.bind]
      rw [hp p _ (by decide), hp p _ (by decide), hp p _ (by decide), hp p _ (by decide), hp p _ (by decide), hp p _ (by decide)]
  unfold evaluatePhases
  rw [h1, h2]

/-- **C132** Light-curve templates know no calendar, as spectra and as band fluxes. -/
theorem C132_template (m : TemplateModel) (d : LcData) (t0 : ℝ) (ts ws : List ℝ) (fs : List Name) :
    templateSed m (t0 + Δ) (later Δ ts) ws = templateSed m t0 ts ws ∧ templateBandflux d (t0 + Δ) (later Δ ts) fs = templateBandflux d t0 ts fs := by
  have e : ((later Δ ts).map fun t => t - (t0 + Δ)) = ts.map fun t => t - t0 := by
    unfold later
    rw [List.map_map]
    refine List.map_congr_left fun t _ => ?_
    simp only [Function.comp]
    ring
  constructor
  · unfold templateSed
    rw [e, map_const_later]
  · unfold templateBandflux
    rw [e, map_const_later]

/-! ### The effects of the library -/

theorem required_later (keys : List Name) (p : Params ℝ) (k : Name) : EffectLib.required (laterParams Δ keys p) k = if k ∈ keys then (EffectLib.required p k).map (fun x => x + Δ) else EffectLib.required p k := by
  unfold EffectLib.required
  rw [get_laterParams]
  by_cases h : k ∈ keys
  · rw [if_pos h, if_pos h]
    cases p.get? k with
    | none => rfl
    | some v => cases v <;> rfl
  · rw [if_neg h, if_neg h]

/-- **C132** Dimming, extinction, white noise and microlensing know no calendar; the time of the lens is a time parameter. -/
theorem C132_effects {ρ : Type} (keys : List Name) :
    ("flux_fraction".toList ∉ keys → ∀ (v : V) (b : Bool), AnchoredEffect keys (constantDimming v b : Effect V R ℝ)) ∧
    (EffectLib.ebvKey ∉ keys → ∀ load arg ebv frame kwargs (e : Effect V R ℝ), EffectLib.extinction load arg ebv frame kwargs = .ok e → AnchoredEffect keys e) ∧
    (EffectLib.sigmaKey ∉ keys → ∀ (G : RandomNodes.RStream ρ ℝ) (v : V) (b : Bool), AnchoredEffect keys (EffectLib.whiteNoise G v b)) ∧
    (EffectLib.lensT0Key ∈ keys → EffectLib.applyKey ∉ keys → EffectLib.u0Key ∉ keys → EffectLib.tEKey ∉ keys → ∀ binary (always t0 u0 tE : V) q kwargs (e : Effect V R ℝ),
      EffectLib.microlensing binary always t0 u0 tE q kwargs = .ok e → AnchoredEffect keys e) := by
  refine ⟨?_, ?_, ?_, ?_⟩
  · intro hk v b Δ p ts ws r a
    simp only [constantDimming, fluxFraction]
    rw [get_laterParams, if_neg hk]
  · intro hk load arg ebv frame kwargs e he Δ p ts ws r a
    unfold EffectLib.extinction at he
    split at he
    · cases he
    · split at he
      · cases he
      · cases he
        simp only [EffectLib.extinctionApply]
        rw [get_laterParams, if_neg hk]
  · intro hk G v b Δ p ts ws r a
    simp only [EffectLib.whiteNoise, EffectLib.noiseSigma]
    rw [required_later, if_neg hk]
  · intro h1 h2 h3 h4 binary always t0 u0 tE q kwargs e he Δ p ts ws r a
    unfold EffectLib.microlensing at he
    split at he
    · cases he
    · split at he
      · cases he
      · cases he
        have hmag : EffectLib.magnifications (laterParams Δ keys p) (later Δ ts) = EffectLib.magnifications p ts := by
          unfold EffectLib.magnifications
          rw [required_later, required_later, required_later, if_pos h1, if_neg h3, if_neg h4]
          cases EffectLib.required p EffectLib.lensT0Key with
          | error e => rfl
          | ok t0 =>
            dsimp only [Except.map]
            cases EffectLib.required p EffectLib.u0Key with
            | error e => rfl
            | ok u0 =>
              dsimp only
              cases EffectLib.required p EffectLib.tEKey with
              | error e => rfl
              | ok tE =>
                dsimp only
                unfold later
                rw [List.map_map]
                refine congrArg Except.ok (List.map_congr_left fun t _ => ?_)
                simp only [Function.comp, EffectLib.pspl]
                have : t + Δ - (t0 + Δ) = t - t0 := by ring
                rw [this]
        simp only [EffectLib.microlensingApply]
        rw [get_laterParams, if_neg h2, hmag]

/-- **C132** Adding an effect that knows no calendar to a model that knows none gives a model that knows none. -/
theorem C132_add_effect {keys : List Name} {m : SEDModel V W R ℝ} {st : SState ℝ} (h : Anchored keys m st) {e : Effect V R ℝ} (he : AnchoredEffect keys e) (skip : Bool) :
    Anchored keys (m.addEffect e skip) st := by
  have hcons : ∀ l : List (Effect V R ℝ), (∀ x ∈ l, AnchoredEffect keys x) → ∀ x ∈ l ++ [e], AnchoredEffect keys x := by
    intro l hl x hx
    rcases List.mem_append.1 hx with hx | hx
    · exact hl x hx
    · exact List.mem_singleton.1 hx ▸ he
  unfold SEDModel.addEffect
  cases skip <;> cases e.restFrame
  · exact ⟨h.t0, h.redshift, h.sed, h.lo, h.hi, h.rest, hcons _ h.obs⟩
  · exact ⟨h.t0, h.redshift, h.sed, h.lo, h.hi, hcons _ h.rest, h.obs⟩
  · exact ⟨h.t0, h.redshift, h.sed, h.lo, h.hi, h.rest, hcons _ h.obs⟩
  · exact ⟨h.t0, h.redshift, h.sed, h.lo, h.hi, hcons _ h.rest, h.obs⟩

/-! ### The simulation -/

/-- **C132** Any model: if the model's band fluxes (and, when it is used, its mask of observable times) do not change when the times and the object are moved together, then
`simulate_lightcurves` on the moved surveys and the moved objects gives what it gives on the original ones, with the reported times moved: the same objects, the same
matched visits, fluxes, errors, noise, random state, saved columns and exceptions. Saved columns must not be the times themselves. -/
theorem C132_simulation (noise : List ℝ → List ℝ → R → Except Err (List ℝ × R)) (isBand : Bool) {move : SState ℝ → SState ℝ} {mask : Option (List ℝ → SState ℝ → List Bool)}
    {saveCols : List Name} {states : List SimState} {surveys : List (Survey R)} (n : Nat) (offset : Option (List (Option ℝ))) (r : R)
    (hb : ∀ s ∈ surveys, Built s.table ∧ s.table.cols.has "time".toList = true) (hs : ∀ s ∈ surveys, ∀ c ∈ saveCols, NotTime s.table c)
    (hm : ∀ f, mask = some f → ∀ s ∈ states, ∀ ts, f (later Δ ts) (move s.state) = f ts s.state)
    (he : ∀ s ∈ states, ∀ v ∈ surveys, ∀ ts fs r, v.eval (later Δ ts) fs (move s.state) r = v.eval ts fs s.state r) :
    simulateLightcurves noise isBand (states.map (laterState Δ move)) (surveys.map fun s => ⟨laterTable Δ s.table, s.eval, s.error⟩) n saveCols mask offset r
      = (simulateLightcurves noise isBand states surveys n saveCols mask offset r).map fun q => (laterResult Δ q.1, q.2) :=
  simulate_later noise isBand n offset r (fun s h => time_column (hb s h).1 (hb s h).2) hs (fun s h f hf ts => hm f hf s h ts) he

/-- **C132** SED models, with the error models of the surveys: if the model knows no calendar (as those above), moving every visit of every survey and the time parameters of
every object by Δ days moves the reported times by Δ days and changes nothing else. -/
theorem C132_models {keys : List Name} {m : SEDModel V W R ℝ} (noKw : W) (draw : R → ℝ × R) {states : List SimState} {args : List SurveyArg} {saveCols : List Name}
    (offset : Option (List (Option ℝ))) (r : R) (hb : ∀ a ∈ args, Built a.table ∧ a.table.cols.has "time".toList = true) (hs : ∀ a ∈ args, ∀ c ∈ saveCols, NotTime a.table c)
    (hm : ∀ s ∈ states, Anchored keys m s.state) :
    simulate m noKw draw (states.map (laterState Δ (laterNode Δ m.nodeString keys))) (args.map (laterSurveyArg Δ)) saveCols offset r
      = (simulate m noKw draw states args saveCols offset r).map fun q => (laterResult Δ q.1, q.2) := by
  unfold simulate simulateWith
  have h1 : (args.map (laterSurveyArg Δ)).map (surveyWith fun a => evalModel m noKw a.group)
      = (args.map (surveyWith fun a => evalModel m noKw a.group)).map fun s => (⟨laterTable Δ s.table, s.eval, s.error⟩ : Survey R) := by
    rw [List.map_map, List.map_map]
    refine List.map_congr_left fun a _ => ?_
    simp only [Function.comp, surveyWith, laterSurveyArg]
    rw [finiteErrors_later]
  rw [h1, List.length_map]
  refine C132_simulation _ false _ offset r ?_ ?_ (fun f hf => by cases hf) ?_
  · intro s hs'
    obtain ⟨a, ha, rfl⟩ := List.mem_map.1 hs'
    exact hb a ha
  · intro s hs'
    obtain ⟨a, ha, rfl⟩ := List.mem_map.1 hs'
    exact hs a ha
  · intro s hs' v hv ts fs r
    obtain ⟨a, ha, rfl⟩ := List.mem_map.1 hv
    exact evalModel_later (hm s hs') noKw a.group ts fs r

/-- **C132** The masks of observable times of SALT2, BayeSN and sncosmo models know no calendar, for an object that has a reference time. -/
theorem C132_mask (lo hi : ℝ) (z : Option ℝ) (t0 t : ℝ) : Salt2.maskByTime lo hi z (some (t0 + Δ)) (t + Δ) = Salt2.maskByTime lo hi z (some t0) t := by
  unfold Salt2.maskByTime
  simp only [Option.getD_some]
  congr 1
  · congr 1
    apply propext
    constructor <;> intro h <;> linarith
  · congr 1
    apply propext
    constructor <;> intro h <;> linarith

/-! ### A survey of two objects, a hundred days later -/

open LCL.EndToEndProps LCL.EndToEndSpec in
/-- The hypotheses are met by a simulation that succeeds: two objects at redshift 1 in two surveys with time windows. -/
theorem C132_example (draw : Nat → ℝ × Nat) : ∃ res r',
    simulate constModel () draw [constState 0, constState 90] [lsstArg, lsstArg] [] (some [some 1, none]) 4 = .ok (res, r') ∧
    simulate constModel () draw [laterState 100 (laterNode 100 "source".toList onlyT0) (constState 0), laterState 100 (laterNode 100 "source".toList onlyT0) (constState 90)]
      [laterSurveyArg 100 lsstArg, laterSurveyArg 100 lsstArg] [] (some [some 1, none]) 4 = .ok (laterResult 100 res, r') := by
  have hobs : ∀ s ∈ [constState 0, constState 90], Observes constModel () s.state (fun _ _ => 10) := by
    intro s hs; simp only [List.mem_cons, List.not_mem_nil, or_false] at hs; rcases hs with rfl | rfl <;> exact const_observes _
  have harg : ∀ a ∈ [lsstArg, lsstArg], a = lsstArg := by intro a ha; simpa using ha
  obtain ⟨res, r', h⟩ := C110_succeeds (m := constModel) (noKw := ()) draw (states := [constState 0, constState 90]) (args := [lsstArg, lsstArg])
    (offset := some [some 1, none]) (fun _ _ _ => 10) (by simp) (fun s hs a _ => observes_in (hobs s hs) a.group) (by intros; norm_num)
    (by intro a ha; rw [harg a ha]; exact gGroup_grid) (by intro a ha; rw [harg a ha]; exact lsst_sound)
    (by intro s hs; simp only [List.mem_cons, List.not_mem_nil, or_false] at hs; rcases hs with rfl | rfl <;> exact ⟨_, _, rfl, rfl⟩)
    (Or.inr ⟨_, _, rfl, by intro s hs; simp only [List.mem_cons, List.not_mem_nil, or_false] at hs; rcases hs with rfl | rfl <;> exact ⟨_, rfl⟩⟩) 4
  refine ⟨res, r', h, ?_⟩
  have := C132_models (Δ := 100) (keys := onlyT0) (m := constModel) () draw (states := [constState 0, constState 90]) (args := [lsstArg, lsstArg]) (saveCols := [])
    (some [some 1, none]) 4 (by intro a ha; rw [harg a ha]; exact ⟨lsst_built, rfl⟩) (by intro a _ c hc; cases hc)
    (by
      intro s _
      refine ⟨by decide, by decide, ?_, fun _ => rfl, fun _ => rfl, fun e he => (List.not_mem_nil he).elim, fun e he => (List.not_mem_nil he).elim⟩
      intro Δ kw ts ws
      exact congrArg Except.ok (map_const_later _ ts))
  rw [h] at this
  exact this

end LCL.TranslateProps
