import Verif.Spec.EndToEnd
import Verif.Props.SimulateOk
import Verif.Props.Bandfluxes
import Verif.Props.SurveyErrors
import Verif.Props.Photometry
import Verif.Props.Passband2

/-!
# Property C110 (the whole path from spectrum to measured flux)
-/

namespace LCL.EndToEndProps
open LCL LCL.PhysSpec LCL.PassbandSpec LCL.PhotSpec LCL.SimSpec LCL.ObsSpec LCL.EndToEnd LCL.EndToEndSpec Real
variable {V W R : Type}

/-! ### Passbands -/

theorem zip_products (H : ℝ → ℝ) : ∀ t : List (ℝ × ℝ),
    List.zip (t.map (·.1)) (List.zipWith (· * ·) ((t.map (·.1)).map H) (t.map (·.2))) = t.map fun p => (p.1, H p.1 * p.2)
  | [] => rfl
  | p :: t => by simp only [List.map_cons, List.zipWith_cons_cons, List.zip_cons_cons, zip_products H t]

theorem area_equal_steps (d : ℝ) : ∀ t : List (ℝ × ℝ), Steps (fun g => g = d) (t.map (·.1)) →
    area t = PassbandLemmas.midSum (t.map (·.2)) * d
  | [], _ => by simp [area, PassbandLemmas.midSum]
  | [p], _ => by simp [area, PassbandLemmas.midSum_single]
  | p :: q :: t, h => by
    have ih := area_equal_steps d (q :: t)
    unfold Steps at h ih
    simp only [List.map_cons, List.isChain_cons_cons] at h ih
    rw [area, ih h.2]
    simp only [List.map_cons, PassbandLemmas.midSum_cons]
    rw [h.1]
    ring

theorem integrate_grid {pb : Passband ℝ} (h : ExactGrid pb) (H : ℝ → ℝ) : pb.integrate (pb.waves.map H) = bandIntegral pb H := by
  unfold bandIntegral
  cases hd : pb.deltaWave with
  | none => rw [PassbandProps.integrate_none hd, h.1, zip_products]
  | some d =>
    rw [PassbandProps.integrate_some hd]
    have hs := h.2 d hd
    rw [h.1] at hs
    have hz : List.zipWith (· * ·) (pb.waves.map H) (pb.table.map (·.2)) = (pb.table.map fun p => (p.1, H p.1 * p.2)).map (·.2) := by
      rw [h.1]
      simp [List.zipWith_map_left, List.zipWith_map_right, List.zipWith_self]
    rw [hz, area_equal_steps d _ (by simpa [List.map_map, Function.comp_def] using hs)]

/-! ### Draws -/

theorem afterDraws_add (draw : R → ℝ × R) : ∀ (n k : Nat) (r : R), afterDraws draw (afterDraws draw r n) k = afterDraws draw r (n + k)
  | 0, k, r => by rw [Nat.zero_add]; rfl
  | n + 1, k, r => by
    rw [show n + 1 + k = (n + k) + 1 by omega]
    exact afterDraws_add draw n k (draw r).2

theorem drawAt_add (draw : R → ℝ × R) : ∀ (n k : Nat) (r : R), drawAt draw (afterDraws draw r n) k = drawAt draw r (n + k)
  | 0, k, r => by rw [Nat.zero_add]; rfl
  | n + 1, k, r => by
    rw [show n + 1 + k = (n + k) + 1 by omega]
    exact drawAt_add draw n k (draw r).2

/-! ### The model's evaluation -/

theorem empty_waves (m : SEDModel V W R ℝ) (noKw : W) (st : SState ℝ) (r : R) : ∃ e, ∀ ts, m.evaluateSingle noKw ts [] st r noKw = .error e := by
  unfold SEDModel.evaluateSingle
  cases localParams st m.nodeString with
  | error e => exact ⟨e, fun _ => rfl⟩
  | ok p =>
    dsimp only
    cases redshiftOf m.applyRedshift p with
    | error e => exact ⟨e, fun _ => rfl⟩
    | ok zs =>
      refine ⟨.valueError, fun ts => ?_⟩
      have : restWavesOf zs ([] : List ℝ) = [] := by unfold restWavesOf; split <;> rfl
      dsimp only
      rw [this]
      rfl

theorem observes_in {m : SEDModel V W R ℝ} {noKw : W} {st : SState ℝ} {H : ℝ → ℝ → ℝ} (h : Observes m noKw st H) (g : PassbandGroup ℝ) :
    ObservesIn m noKw st g H := fun _ _ _ hw ts r => h ts _ r hw

open Classical in
/-- The evaluation, failing for wavelengths that are not those of a passband of the group. -/
noncomputable def restricted (g : PassbandGroup ℝ) (evalSed : List ℝ → List ℝ → R → Except Err (Mat ℝ × R)) : List ℝ → List ℝ → R → Except Err (Mat ℝ × R) :=
  fun ts ws r => if ∃ f pb, g.getItem f = .ok pb ∧ pb.waves = ws then evalSed ts ws r else .error .valueError

theorem restricted_of {g : PassbandGroup ℝ} (evalSed : List ℝ → List ℝ → R → Except Err (Mat ℝ × R)) {f : Name} {pb : Passband ℝ} (h : g.getItem f = .ok pb) (ts : List ℝ) (r : R) :
    restricted g evalSed ts pb.waves r = evalSed ts pb.waves r := if_pos ⟨f, pb, h, rfl⟩

theorem restricted_loop (evalSed : List ℝ → List ℝ → R → Except Err (Mat ℝ × R)) (g : PassbandGroup ℝ) (ts : List ℝ) (filters : List Name) :
    ∀ (fs : List Name) (r : R) (out : List ℝ), bandfluxLoop (restricted g evalSed) g ts filters fs r out = bandfluxLoop evalSed g ts filters fs r out
  | [], _, _ => rfl
  | f :: fs, r, out => by
    rw [bandfluxLoop, bandfluxLoop]
    cases hg : g.getItem f with
    | error e => rfl
    | ok pb =>
      dsimp only
      rw [restricted_of evalSed hg]
      split
      · rfl
      · split
        · rfl
        · exact restricted_loop evalSed g ts filters fs _ _

theorem observes_rowWise {m : SEDModel V W R ℝ} {noKw : W} {st : SState ℝ} {g : PassbandGroup ℝ} {H : ℝ → ℝ → ℝ} (h : ObservesIn m noKw st g H) (r : R) :
    RowWise (restricted g fun ts ws r => m.evaluateSingle noKw ts ws st r noKw) r := by
  intro ws
  by_cases hex : ∃ f pb, g.getItem f = .ok pb ∧ pb.waves = ws
  · by_cases hw : ws = []
    · right
      obtain ⟨e, he⟩ := empty_waves m noKw st r
      refine ⟨e, fun ts => ?_⟩
      show restricted g _ ts ws r = _
      unfold restricted
      rw [if_pos hex, hw]
      exact he ts
    · left
      obtain ⟨f, pb, hpb, rfl⟩ := hex
      exact ⟨fun t => pb.waves.map (H t), by simp, fun ts => (restricted_of _ hpb ts r).trans (h f pb hpb hw ts r)⟩
  · right
    exact ⟨.valueError, fun ts => if_neg hex⟩

theorem evalModel_iff (m : SEDModel V W R ℝ) (noKw : W) (g : PassbandGroup ℝ) (ts : List ℝ) (fs : List Name) (st : SState ℝ) (r r' : R) (out : List ℝ) :
    evalModel m noKw g ts fs st r = .ok (out, r') ↔ fs.length = ts.length ∧
      bandfluxesSingle (fun ts ws r => m.evaluateSingle noKw ts ws st r noKw) g ts fs r = .ok (out, r') := by
  unfold evalModel evaluateBandfluxes
  simp only [BandArg.resolve, eachSample, SEDModel.evaluateBandfluxesSingle]
  by_cases hl : fs.length = ts.length
  · rw [if_neg (not_not.2 hl)]
    cases bandfluxesSingle (fun ts ws r => m.evaluateSingle noKw ts ws st r noKw) g ts fs r with
    | error e => simp
    | ok q => obtain ⟨a, b⟩ := q; simp [hl]
  · rw [if_pos hl]
    simp [hl]

theorem loop_length (evalSed : List ℝ → List ℝ → R → Except Err (Mat ℝ × R)) (g : PassbandGroup ℝ) (ts : List ℝ) (filters : List Name) :
    ∀ (fs : List Name) (r : R) (out : List ℝ) (res : List ℝ × R), bandfluxLoop evalSed g ts filters fs r out = .ok res → res.1.length = out.length
  | [], r, out, res, h => by cases h; rfl
  | f :: fs, r, out, res, h => by
    unfold bandfluxLoop at h
    split at h
    · cases h
    · dsimp only at h
      split at h
      · cases h
      · split at h
        · cases h
        · have := loop_length evalSed g ts filters fs _ _ _ h
          rw [this, PhysLemmas.scatter_length]

theorem evalModel_restricted (m : SEDModel V W R ℝ) (noKw : W) (g : PassbandGroup ℝ) (ts : List ℝ) (fs : List Name) (st : SState ℝ) (r r' : R) (out : List ℝ) :
    evalModel m noKw g ts fs st r = .ok (out, r') ↔ fs.length = ts.length ∧
      bandfluxesSingle (restricted g fun ts ws r => m.evaluateSingle noKw ts ws st r noKw) g ts fs r = .ok (out, r') := by
  rw [evalModel_iff]
  unfold bandfluxesSingle
  rw [restricted_loop]

theorem errors_ok {k : Kind} {t : ObsTable} {p : List ℝ} {rows : List Nat} {e : List ℝ} (h : finiteErrors k t p rows = .ok e) :
    p.length = rows.length ∧ e.length = rows.length ∧
    ∀ (i q : Nat) (x : ℝ), rows[i]? = some q → p[i]? = some x → ∃ a err, NoiseOf k t q a ∧ poissonStd x a = some err ∧ e[i]? = some err := by
  unfold finiteErrors at h
  cases ho : errorOf k t p rows with
  | error e => rw [ho] at h; cases h
  | ok l =>
    rw [ho] at h; dsimp only at h
    cases hm : l.mapM id with
    | none => rw [hm] at h; cases h
    | some l' =>
      rw [hm] at h; cases h
      have hl : l = e.map some := ObsLemmas.mapM_id_some.1 hm
      have key : p.length = rows.length ∧ l.length = rows.length ∧
          ∀ (i q : Nat) (x : ℝ), rows[i]? = some q → p[i]? = some x → ∃ a, NoiseOf k t q a ∧ l[i]? = some (poissonStd x a) := by
        cases k with
        | opsim =>
          obtain ⟨h1, h2, scale, ro, dark, s1, s2, s3, hk⟩ := SurveyErrorProps.C69_opsim ho
          refine ⟨h1, h2, fun i q x hq hx => ?_⟩
          obtain ⟨a, b, c, d, e, h3, h4, h5, h6, h7, h8⟩ := hk i q x hq hx
          exact ⟨_, ⟨scale, ro, dark, a, b, c, d, e, s1, s2, s3, h3, h4, h5, h6, h7, rfl⟩, h8⟩
        | ztf =>
          obtain ⟨h1, h2, gain, ro, dark, s1, s2, s3, hk⟩ := SurveyErrorProps.C69_ztf ho
          refine ⟨h1, h2, fun i q x hq hx => ?_⟩
          obtain ⟨a, b, c, d, h3, h4, h5, h6, h7⟩ := hk i q x hq hx
          exact ⟨_, ⟨gain, ro, dark, a, b, c, d, s1, s2, s3, h3, h4, h5, h6, rfl⟩, h7⟩
        | roman =>
          obtain ⟨h1, h2, level, dark, s1, s2, hk⟩ := SurveyErrorProps.C69_roman ho
          refine ⟨h1, h2, fun i q x hq hx => ?_⟩
          obtain ⟨a, b, c, d, e, h3, h4, h5, h6, h7, h8⟩ := hk i q x hq hx
          exact ⟨_, ⟨level, dark, a, b, c, d, e, s1, s2, h3, h4, h5, h6, h7, rfl⟩, h8⟩
      obtain ⟨h1, h2, h3⟩ := key
      refine ⟨h1, by rw [← h2, hl, List.length_map], fun i q x hq hx => ?_⟩
      obtain ⟨a, ha, hi⟩ := h3 i q x hq hx
      rw [hl, List.getElem?_map] at hi
      cases he : e[i]? with
      | none => rw [he] at hi; cases hi
      | some y =>
        rw [he] at hi
        simp only [Option.map_some, Option.some.injEq] at hi
        exact ⟨a, y, ha, hi.symm, rfl⟩

/-- The lengths the simulation needs: as many fluxes as times. -/
def Sized (ev : SurveyArg → List ℝ → List Name → SState ℝ → R → Except Err (List ℝ × R)) : Prop :=
  ∀ a ts fs st r p r', ev a ts fs st r = .ok (p, r') → p.length = ts.length

theorem sized_model (m : SEDModel V W R ℝ) (noKw : W) : Sized (fun a => evalModel m noKw a.group) := by
  intro a ts fs st r p r' h
  obtain ⟨_, h2⟩ := (evalModel_iff m noKw a.group ts fs st r r' p).1 h
  have := loop_length _ _ _ _ _ _ _ _ h2
  simpa using this

theorem shaped_with {ev : SurveyArg → List ℝ → List Name → SState ℝ → R → Except Err (List ℝ × R)} (hev : Sized ev) (draw : R → ℝ × R) (args : List SurveyArg) :
    Shaped (applyNoise draw) (args.map (surveyWith ev)) := by
  refine ⟨?_, ?_, ?_⟩
  · intro s hs ts fs st r out h
    obtain ⟨a, _, rfl⟩ := List.mem_map.1 hs
    obtain ⟨o, r'⟩ := out
    exact hev a ts fs st r o r' h
  · intro s hs p rows e h
    obtain ⟨a, _, rfl⟩ := List.mem_map.1 hs
    obtain ⟨h1, h2, _⟩ := errors_ok (k := a.kind) h
    rw [h2, h1]
  · intro p e r out h
    obtain ⟨o, r'⟩ := out
    exact ((PhotometryProps.C42_noise draw p e r).1 o r' h).1

theorem shaped (m : SEDModel V W R ℝ) (noKw : W) (draw : R → ℝ × R) (args : List SurveyArg) :
    Shaped (applyNoise draw) (args.map (surveyOf m noKw)) := shaped_with (sized_model m noKw) draw args

/-! ### One object in one survey -/

theorem map_some_get {β γ δ : Type} {l : List β} {l' : List γ} {f : β → Option δ} {g : γ → Option δ} (h : l.map f = l'.map g) {i : Nat} {x : β}
    (hx : l[i]? = some x) : ∃ y, l'[i]? = some y ∧ f x = g y := by
  have h' := congrArg (fun z => z[i]?) h
  simp only [List.getElem?_map, hx, Option.map_some] at h'
  cases hy : l'[i]? with
  | none => rw [hy] at h'; cases h'
  | some y =>
    rw [hy] at h'
    exact ⟨y, rfl, by simpa using h'⟩

/-- The noise-free fluxes: the spectrum at the time of each observation, integrated over its passband. -/
theorem eval_values {m : SEDModel V W R ℝ} {noKw : W} {g : PassbandGroup ℝ} {st : SState ℝ} {H : ℝ → ℝ → ℝ} (hobs : ObservesIn m noKw st g H)
    (hgrid : ∀ f pb, g.getItem f = .ok pb → ExactGrid pb) {ts : List ℝ} {fs : List Name} {p : List ℝ} {r r1 : R}
    (h : evalModel m noKw g ts fs st r = .ok (p, r1)) :
    r1 = r ∧ p.length = ts.length ∧ fs.length = ts.length ∧
    ∀ (i : Nat) t f, ts[i]? = some t → fs[i]? = some f → ∃ pb, g.getItem f = .ok pb ∧ p[i]? = some (bandIntegral pb (H t)) := by
  obtain ⟨hl, h3⟩ := (evalModel_restricted m noKw g ts fs st r r1 p).1 h
  have hrow := observes_rowWise hobs r
  have hr1 : r1 = r := ((BandfluxProps.loop_spec hrow g ts fs hl (npUnique fs) (ts.map fun _ => 0)
    (BandfluxProps.nodup_npUnique _) (fun f hf => (BandfluxProps.mem_npUnique _ _).1 hf) (by simp)).1 _ h3).1
  subst hr1
  obtain ⟨hpl, hp⟩ := (BandfluxProps.C31_independent _ r1 hrow g ts fs hl p).1 h3
  refine ⟨rfl, hpl, hl, ?_⟩
  intro i t f ht hf
  have hi : i < p.length := by rw [hpl]; exact (List.getElem?_eq_some_iff.1 ht).1
  obtain ⟨x, hx⟩ : ∃ x, p[i]? = some x := ⟨_, List.getElem?_eq_getElem hi⟩
  have hone := hp i t f x ht hf hx
  have hsing := (BandfluxProps.single_run hrow g f t x).1 hone
  unfold BandfluxProps.single at hsing
  cases hg : g.getItem f with
  | error e => rw [hg] at hsing; cases hsing
  | ok pb =>
    rw [hg] at hsing
    dsimp only at hsing
    refine ⟨pb, rfl, ?_⟩
    by_cases hw : pb.waves = []
    · exfalso
      rcases hrow [] with ⟨row, hr, hts⟩ | ⟨e, he⟩
      · have hts' := hts [t]
        rw [hw, hts'] at hsing
        have : row t = [] := List.length_eq_zero_iff.1 (hr t)
        simp [Passband.bandflux, this] at hsing
      · have he' := he [t]
        rw [hw, he'] at hsing; cases hsing
    · rw [restricted_of _ hg, hobs f pb hg hw [t] r1] at hsing
      simp only [List.map_cons, List.map_nil, Passband.bandflux] at hsing
      rw [if_neg (by simpa using hw), if_neg (by simp)] at hsing
      simp only [Except.ok.injEq, List.headD_cons] at hsing
      rw [hx, ← hsing, integrate_grid (hgrid f pb hg)]

/-- An SED model gives band fluxes of its spectrum. -/
theorem fluxes_of {m : SEDModel V W R ℝ} {noKw : W} {g : PassbandGroup ℝ} {st : SState ℝ} {H : ℝ → ℝ → ℝ} (hobs : ObservesIn m noKw st g H)
    (hgrid : ∀ f pb, g.getItem f = .ok pb → ExactGrid pb) : Fluxes (evalModel m noKw g) st (BandFlux g H) := by
  intro ts fs r p r' h
  obtain ⟨h1, h2, h3, h4⟩ := eval_values hobs hgrid h
  refine ⟨h1, h2, h3, fun i t f x ht hf hx => ?_⟩
  obtain ⟨pb, e1, e2⟩ := h4 i t f ht hf
  rw [hx] at e2
  exact ⟨pb, e1, Option.some.inj e2⟩

theorem std_some {x err : ℝ} {a : NoiseArgs} (h : poissonStd x a = some err) : a.zp ≠ 0 ∧ 0 ≤ totalVariance x a ∧ err = √(totalVariance x a) * a.zp := by
  unfold poissonStd at h
  split at h
  · cases h
  · split at h
    · cases h
    · simp only [Option.some.injEq] at h
      exact ⟨‹_›, not_lt.1 ‹_›, h.symm⟩

theorem block_measured {ev : SurveyArg → List ℝ → List Name → SState ℝ → R → Except Err (List ℝ × R)} {draw : R → ℝ × R} {a : SurveyArg} {st : SState ℝ}
    {P : Name → ℝ → ℝ → Prop} (hobs : Fluxes (ev a) st P) {b : Block} {r r' : R} (h : BlockOf (applyNoise draw) (surveyWith ev a) st b r r') (j : Nat) :
    r' = afterDraws draw r b.rows.length ∧
    ∀ (i q : Nat), b.rows[i]? = some q → MeasuredBy a j q P (drawAt draw r i) (b.column (surveyWith ev a) j) i := by
  obtain ⟨h1, h2, r1, h3, h4, h5⟩ := h
  obtain ⟨rfl, hpl, hl, hval⟩ := hobs _ _ _ _ _ h3
  obtain ⟨e1, e2, e3⟩ := errors_ok (k := a.kind) h4
  obtain ⟨n1, n2, n3⟩ := (PhotometryProps.C42_noise draw b.perfect b.err r1).1 _ _ h5
  refine ⟨by rw [n2, e1], ?_⟩
  intro i q hq
  obtain ⟨t, ht, ht'⟩ := map_some_get h1 hq
  obtain ⟨f, hf, hf'⟩ := map_some_get h2 hq
  obtain ⟨x, hx⟩ : ∃ x, b.perfect[i]? = some x := ⟨_, List.getElem?_eq_getElem (by rw [e1]; exact (List.getElem?_eq_some_iff.1 hq).1)⟩
  have hpb := hval i t f x ht hf hx
  obtain ⟨noise, err, m1, m2, m3⟩ := e3 i q _ hq hx
  have hz := std_some m2
  refine ⟨t, f, x, noise, err, ht', hf', hpb, m1, hz.1, hz.2.1, hz.2.2, ?_, ?_, ?_, ?_, ?_, ?_⟩
  · simp [Block.column, ht]
  · simp [Block.column, hf]
  · simp [Block.column, hx]
  · simp [Block.column, m3]
  · simp [Block.column, n3 i _ _ hx m3]
  · have hlt := (List.getElem?_eq_some_iff.1 hq).1
    simp [Block.column, List.getElem?_replicate, hlt]

/-! ### All surveys of one object -/

/-- The observations of an object: survey number and row, starting with survey `j`. -/
def obsOf : Nat → List Block → List (Nat × Nat)
  | _, [] => []
  | j, b :: bs => b.rows.map (fun q => (j, q)) ++ obsOf (j + 1) bs

theorem obsOf_length : ∀ (bs : List Block) (j : Nat), (obsOf j bs).length = nobsOf bs
  | [], _ => rfl
  | b :: bs, j => by
    rw [obsOf, List.length_append, List.length_map, obsOf_length bs]
    simp [nobsOf]

theorem measured_congr {a : SurveyArg} {j q : Nat} {P : Name → ℝ → ℝ → Prop} {eps : ℝ} {col col' : Name → List NCell} {i i' : Nat}
    (h : MeasuredBy a j q P eps col i) (hc : ∀ c, ∀ x, (col c)[i]? = some x → (col' c)[i']? = some x) : MeasuredBy a j q P eps col' i' := by
  obtain ⟨t, f, pb, noise, err, h1, h2, h3, h4, h5, h6, h7, c1, c2, c3, c4, c5, c6⟩ := h
  exact ⟨t, f, pb, noise, err, h1, h2, h3, h4, h5, h6, h7, hc _ _ c1, hc _ _ c2, hc _ _ c3, hc _ _ c4, hc _ _ c5, hc _ _ c6⟩

theorem surveys_measured {ev : SurveyArg → List ℝ → List Name → SState ℝ → R → Except Err (List ℝ × R)} (hev : Sized ev) {draw : R → ℝ × R} {st : SState ℝ}
    {P : SurveyArg → Name → ℝ → ℝ → Prop} (args : List SurveyArg) (hobs : ∀ a ∈ args, Fluxes (ev a) st (P a)) :
    ∀ (bs : List Block) (r r' : R), SurveyBlocks (applyNoise draw) st (args.map (surveyWith ev)) r bs r' → ∀ j0,
      r' = afterDraws draw r (nobsOf bs) ∧ bs.length = args.length ∧
      ∀ (i j q : Nat), (obsOf j0 bs)[i]? = some (j, q) → ∃ a, j0 ≤ j ∧ args[j - j0]? = some a ∧
        MeasuredBy a j q (P a) (drawAt draw r i) (surveyColumns j0 (args.map (surveyWith ev)) bs) i := by
  induction args with
  | nil =>
    intro bs r r' h j0
    cases h
    exact ⟨rfl, rfl, by simp [obsOf]⟩
  | cons a args ih =>
    intro bs r r' h j0
    cases h with
    | @cons _ _ _ b r1 bs' _ hb hbs =>
      obtain ⟨b1, b2⟩ := block_measured (hobs a (by simp)) hb j0
      obtain ⟨i1, i2, i3⟩ := ih (fun a' ha' => hobs a' (by simp [ha'])) bs' r1 r' hbs (j0 + 1)
      have hsh := shaped_with hev draw [a]
      have hlen : ∀ c, (b.column (surveyWith ev a) j0 c).length = b.rows.length := fun c =>
        SimulateProps.column_length hsh (by simp) hb j0 c
      refine ⟨?_, by simp [i2], ?_⟩
      · rw [i1, b1, afterDraws_add]
        simp [nobsOf]
      · intro i j q hq
        rw [obsOf] at hq
        by_cases hi : i < b.rows.length
        · rw [List.getElem?_append_left (by simpa using hi), List.getElem?_map] at hq
          obtain ⟨q', hq', e⟩ := Option.map_eq_some_iff.1 hq
          simp only [Prod.mk.injEq] at e
          obtain ⟨rfl, rfl⟩ := e
          refine ⟨a, le_refl _, by simp, measured_congr (b2 i q' hq') ?_⟩
          intro c x hx
          rw [List.map_cons, surveyColumns, List.getElem?_append_left (by rw [hlen]; exact hi)]
          exact hx
        · push Not at hi
          rw [List.getElem?_append_right (by simpa using hi), List.length_map] at hq
          obtain ⟨a', h1, h2, h3⟩ := i3 _ j q hq
          refine ⟨a', by omega, ?_, ?_⟩
          · rw [show j - j0 = (j - (j0 + 1)) + 1 by omega, List.getElem?_cons_succ]; exact h2
          · rw [b1, drawAt_add, Nat.add_sub_cancel' hi] at h3
            refine measured_congr h3 ?_
            intro c x hx
            rw [List.map_cons, surveyColumns, List.getElem?_append_right (by rw [hlen]; exact hi), hlen]
            exact hx

/-! ### All objects -/

theorem objects_measured {ev : SurveyArg → List ℝ → List Name → SState ℝ → R → Except Err (List ℝ × R)} (hev : Sized ev) {draw : R → ℝ × R} {args : List SurveyArg}
    (P : SurveyArg → SState ℝ → Name → ℝ → ℝ → Prop) :
    ∀ (states : List SimState) (bss : List (List Block)) (r r' : R), (∀ s ∈ states, ∀ a ∈ args, Fluxes (ev a) s.state (P a s.state)) →
      ObjectBlocks (applyNoise draw) (args.map (surveyWith ev)) states r bss r' →
      r' = afterDraws draw r (bss.map nobsOf).sum ∧
      ∀ (k : Nat) (s : SimState) (bs : List Block), states[k]? = some s → bss[k]? = some bs →
        bs.length = args.length ∧
        ∀ (i j q : Nat), (obsOf 0 bs)[i]? = some (j, q) → ∃ a, args[j]? = some a ∧
          MeasuredBy a j q (P a s.state) (drawAt draw r (((bss.map nobsOf).take k).sum + i)) (surveyColumns 0 (args.map (surveyWith ev)) bs) i := by
  intro states
  induction states with
  | nil =>
    intro bss r r' _ h
    cases h
    exact ⟨rfl, by simp⟩
  | cons s states ih =>
    intro bss r r' hobs h
    cases h with
    | @cons _ _ _ bs r1 bss' _ hb hbs =>
      obtain ⟨a1, a2, a3⟩ := surveys_measured hev (P := fun a => P a s.state) args (hobs s (by simp)) bs r r1 hb 0
      obtain ⟨i1, i2⟩ := ih bss' r1 r' (fun s' hs' => hobs s' (by simp [hs'])) hbs
      refine ⟨by rw [i1, a1, afterDraws_add]; simp, ?_⟩
      intro k s' bs' hk hbk
      cases k with
      | zero =>
        simp only [List.getElem?_cons_zero, Option.some.injEq] at hk hbk
        subst hk; subst hbk
        refine ⟨a2, ?_⟩
        intro i j q hq
        obtain ⟨a, _, h2, h3⟩ := a3 i j q hq
        exact ⟨a, by simpa using h2, by simpa using h3⟩
      | succ k =>
        simp only [List.getElem?_cons_succ] at hk hbk
        obtain ⟨e1, e2⟩ := i2 k s' bs' hk hbk
        refine ⟨e1, ?_⟩
        intro i j q hq
        obtain ⟨a, h2, h3⟩ := e2 i j q hq
        refine ⟨a, h2, ?_⟩
        rw [a1, drawAt_add] at h3
        simpa [Nat.add_assoc] using h3

theorem obsOf_mem : ∀ (bs : List Block) (j0 j q : Nat), (j, q) ∈ obsOf j0 bs ↔ j0 ≤ j ∧ ∃ b, bs[j - j0]? = some b ∧ q ∈ b.rows
  | [], j0, j, q => by simp [obsOf]
  | b :: bs, j0, j, q => by
    rw [obsOf, List.mem_append, obsOf_mem bs]
    simp only [List.mem_map, Prod.mk.injEq]
    constructor
    · rintro (⟨q', hq, rfl, rfl⟩ | ⟨h1, b', h2, h3⟩)
      · exact ⟨le_refl _, b, by simp, hq⟩
      · refine ⟨by omega, b', ?_, h3⟩
        rw [show j - j0 = (j - (j0 + 1)) + 1 by omega, List.getElem?_cons_succ]; exact h2
    · rintro ⟨h1, b', h2, h3⟩
      by_cases hj : j = j0
      · subst hj
        simp only [Nat.sub_self, List.getElem?_cons_zero, Option.some.injEq] at h2
        subst h2
        exact Or.inl ⟨q, h3, rfl, rfl⟩
      · refine Or.inr ⟨by omega, b', ?_, h3⟩
        rw [show j - j0 = (j - (j0 + 1)) + 1 by omega, List.getElem?_cons_succ] at h2; exact h2

theorem obsOf_sorted : ∀ (bs : List Block) (j0 : Nat), (∀ b ∈ bs, b.rows.Pairwise (· < ·)) →
    (obsOf j0 bs).Pairwise (fun x y => x.1 < y.1 ∨ x.1 = y.1 ∧ x.2 < y.2)
  | [], _, _ => by simp [obsOf]
  | b :: bs, j0, h => by
    rw [obsOf, List.pairwise_append]
    refine ⟨?_, obsOf_sorted bs (j0 + 1) (fun b' hb' => h b' (by simp [hb'])), ?_⟩
    · rw [List.pairwise_map]
      exact (h b (by simp)).imp (fun hq => Or.inr ⟨rfl, hq⟩)
    · intro x hx y hy
      obtain ⟨q, _, rfl⟩ := List.mem_map.1 hx
      have := ((obsOf_mem bs (j0 + 1) y.1 y.2).1 hy).1
      left
      show j0 < y.1
      omega

/-- C110, for any model: one that, asked for fluxes, gives fluxes `P` allows and draws no random numbers. The lightcurve of every object has, in order of survey and row,
exactly the observations matching the object's position and time window, each recording the time and filter of that row, a flux `P` allows for them, the error that
row's own conditions give for this flux, and the flux plus that error times the next standard normal number. -/
theorem C110_fluxes {ev : SurveyArg → List ℝ → List Name → SState ℝ → R → Except Err (List ℝ × R)} (hev : Sized ev) {isBand : Bool} {draw : R → ℝ × R} {states : List SimState} {args : List SurveyArg} {saveCols : List Name}
    {offset : Option (List (Option ℝ))} {r r' : R} {res : SimResult} (P : SurveyArg → SState ℝ → Name → ℝ → ℝ → Prop)
    (hne : args ≠ []) (hobs : ∀ s ∈ states, ∀ a ∈ args, Fluxes (ev a) s.state (P a s.state))
    (hbuilt : ∀ a ∈ args, Built a.table) (hrad : ∀ a ∈ args, ∃ rad, a.table.radius = some rad ∧ 0 ≤ rad ∧ rad ≤ 180)
    (hsave : saveCols.Nodup ∧ ∀ c ∈ saveCols, c ∉ baseCols)
    (h : simulateWith isBand ev draw states args saveCols offset r = .ok (res, r')) :
    res.ids = List.range states.length ∧ res.ra = states.map (·.ra) ∧ res.dec = states.map (·.dec) ∧ res.nobs.length = states.length ∧
    r' = afterDraws draw r res.nobs.sum ∧
    ∀ (k : Nat) (s : SimState), states[k]? = some s → ∃ (ra dec : ℝ) (obs : List (Nat × Nat)), s.ra = some ra ∧ s.dec = some dec ∧
      res.nobs[k]? = some obs.length ∧ obs.Pairwise (fun x y => x.1 < y.1 ∨ x.1 = y.1 ∧ x.2 < y.2) ∧
      (∀ j q, (j, q) ∈ obs ↔ ∃ a rad, args[j]? = some a ∧ a.table.radius = some rad ∧
        Match a.table (ra, dec) rad (winLo offset s.t0) (winHi offset s.t0) q) ∧
      (∀ c ∈ baseCols, (lightcurve res.nested k c).length = obs.length) ∧
      ∀ (i j q : Nat), obs[i]? = some (j, q) → ∃ a, args[j]? = some a ∧
        MeasuredBy a j q (P a s.state) (drawAt draw r ((res.nobs.take k).sum + i)) (lightcurve res.nested k) i := by
  obtain ⟨h1, h2, h3, bss, hb, hl, hn, hcol, hmatch⟩ := SimulateProps.C40_lightcurves_partial (shaped_with hev draw args) hsave.1 hsave.2
    (by intro s hs; obtain ⟨a, ha, rfl⟩ := List.mem_map.1 hs; exact hbuilt a ha) h
  obtain ⟨o1, o2⟩ := objects_measured hev P states bss r r' hobs hb
  refine ⟨h1, h2, h3, by rw [hn, List.length_map, hl], by rw [o1, hn], ?_⟩
  intro k s hk
  have hkl : k < bss.length := by rw [hl]; exact (List.getElem?_eq_some_iff.1 hk).1
  obtain ⟨bs, hbs⟩ : ∃ bs, bss[k]? = some bs := ⟨_, List.getElem?_eq_getElem hkl⟩
  obtain ⟨o3, o4⟩ := o2 k s bs hk hbs
  have hm : ∀ (j : Nat) (a : SurveyArg) (b : Block), args[j]? = some a → bs[j]? = some b → ∃ ra dec rad, s.ra = some ra ∧ s.dec = some dec ∧
      a.table.radius = some rad ∧ b.rows.Pairwise (· < ·) ∧ ∀ q, q ∈ b.rows ↔ Match a.table (ra, dec) rad (winLo offset s.t0) (winHi offset s.t0) q := by
    intro j a b ha hbj
    obtain ⟨rad, r1, r2, r3⟩ := hrad a (List.mem_of_getElem? ha)
    obtain ⟨ra, dec, matched, all, m1, m2, m3, m4, _, m6⟩ := hmatch k j s (surveyWith ev a) bs b hk (by simp [ha]) hbs hbj rad r1 r2 r3
    have : b.rows = matched := m6
    rw [this]
    exact ⟨ra, dec, rad, m1, m2, r1, m3, m4⟩
  obtain ⟨ra, dec, hra, hdec⟩ : ∃ ra dec, s.ra = some ra ∧ s.dec = some dec := by
    have h0 : 0 < args.length := List.length_pos_iff.2 hne
    obtain ⟨ra, dec, _, e1, e2, _⟩ := hm 0 args[0] (bs[0]'(by omega)) (List.getElem?_eq_getElem _) (List.getElem?_eq_getElem _)
    exact ⟨ra, dec, e1, e2⟩
  refine ⟨ra, dec, obsOf 0 bs, hra, hdec, ?_, ?_, ?_, ?_, ?_⟩
  · rw [hn, List.getElem?_map, hbs, obsOf_length]; rfl
  · refine obsOf_sorted bs 0 ?_
    intro b hb'
    obtain ⟨j, hj, rfl⟩ := List.getElem_of_mem hb'
    obtain ⟨_, _, _, _, _, _, e, _⟩ := hm j (args[j]'(by omega)) bs[j] (List.getElem?_eq_getElem _) (List.getElem?_eq_getElem _)
    exact e
  · intro j q
    rw [obsOf_mem]
    constructor
    · rintro ⟨_, b, hb', hq⟩
      simp only [Nat.sub_zero] at hb'
      have hj : j < args.length := by rw [← o3]; exact (List.getElem?_eq_some_iff.1 hb').1
      obtain ⟨ra', dec', rad, e1, e2, e3, _, e5⟩ := hm j args[j] b (List.getElem?_eq_getElem hj) hb'
      rw [hra] at e1; rw [hdec] at e2; cases e1; cases e2
      exact ⟨args[j], rad, List.getElem?_eq_getElem hj, e3, (e5 q).1 hq⟩
    · rintro ⟨a, rad, ha, hr, hq⟩
      have hj : j < bs.length := by rw [o3]; exact (List.getElem?_eq_some_iff.1 ha).1
      refine ⟨Nat.zero_le _, bs[j], by simp [List.getElem?_eq_getElem hj], ?_⟩
      obtain ⟨ra', dec', rad', e1, e2, e3, _, e5⟩ := hm j a bs[j] ha (List.getElem?_eq_getElem hj)
      rw [hra] at e1; rw [hdec] at e2; rw [hr] at e3; cases e1; cases e2; cases e3
      exact (e5 q).2 hq
  · intro c hc
    rw [obsOf_length]
    exact (hcol k bs hbs c (by simp [hc])).2
  · intro i j q hq
    obtain ⟨a, ha, hme⟩ := o4 i j q hq
    refine ⟨a, ha, ?_⟩
    rw [hn]
    have hcol' : ∀ c ∈ baseCols, lightcurve res.nested k c = surveyColumns 0 (args.map (surveyWith ev)) bs c := fun c hc => (hcol k bs hbs c (by simp [hc])).1
    obtain ⟨t, f, pb, noise, err, p1, p2, p3, p4, p5, p6, p7, c1, c2, c3, c4, c5, c6⟩ := hme
    refine ⟨t, f, pb, noise, err, p1, p2, p3, p4, p5, p6, p7, ?_, ?_, ?_, ?_, ?_, ?_⟩
    · rw [hcol' _ (by simp [baseCols])]; exact c1
    · rw [hcol' _ (by simp [baseCols])]; exact c2
    · rw [hcol' _ (by simp [baseCols])]; exact c3
    · rw [hcol' _ (by simp [baseCols])]; exact c4
    · rw [hcol' _ (by simp [baseCols])]; exact c5
    · rw [hcol' _ (by simp [baseCols])]; exact c6

/-- C110. A successful simulation of an SED model whose observer-frame spectrum is `H st t w` (at the wavelengths of the passbands), in any number of surveys (OpSim, ZTF or Roman tables, with
passbands on exact grids), gives every object a lightcurve whose entries are, in order of survey and row, exactly the observations matching the object's position
and time window, and entry `i` records: the time and filter of that row; the spectrum at that time integrated over the passband of that filter in that survey's
group; the error that row's own conditions give for this flux; and the flux plus that error times the next standard normal number of the generator, the numbers
being used in order over all objects, surveys and rows, each once. -/
theorem C110_measured {m : SEDModel V W R ℝ} {noKw : W} {draw : R → ℝ × R} {states : List SimState} {args : List SurveyArg} {saveCols : List Name}
    {offset : Option (List (Option ℝ))} {r r' : R} {res : SimResult} (H : SState ℝ → ℝ → ℝ → ℝ)
    (hne : args ≠ []) (hobs : ∀ s ∈ states, ∀ a ∈ args, ObservesIn m noKw s.state a.group (H s.state))
    (hgrid : ∀ a ∈ args, ∀ f pb, a.group.getItem f = .ok pb → ExactGrid pb) (hbuilt : ∀ a ∈ args, Built a.table) (hrad : ∀ a ∈ args, ∃ rad, a.table.radius = some rad ∧ 0 ≤ rad ∧ rad ≤ 180)
    (hsave : saveCols.Nodup ∧ ∀ c ∈ saveCols, c ∉ baseCols)
    (h : simulate m noKw draw states args saveCols offset r = .ok (res, r')) :
    res.ids = List.range states.length ∧ res.ra = states.map (·.ra) ∧ res.dec = states.map (·.dec) ∧ res.nobs.length = states.length ∧
    r' = afterDraws draw r res.nobs.sum ∧
    ∀ (k : Nat) (s : SimState), states[k]? = some s → ∃ (ra dec : ℝ) (obs : List (Nat × Nat)), s.ra = some ra ∧ s.dec = some dec ∧
      res.nobs[k]? = some obs.length ∧ obs.Pairwise (fun x y => x.1 < y.1 ∨ x.1 = y.1 ∧ x.2 < y.2) ∧
      (∀ j q, (j, q) ∈ obs ↔ ∃ a rad, args[j]? = some a ∧ a.table.radius = some rad ∧
        Match a.table (ra, dec) rad (winLo offset s.t0) (winHi offset s.t0) q) ∧
      (∀ c ∈ baseCols, (lightcurve res.nested k c).length = obs.length) ∧
      ∀ (i j q : Nat), obs[i]? = some (j, q) → ∃ a, args[j]? = some a ∧
        Measured a j q (H s.state) (drawAt draw r ((res.nobs.take k).sum + i)) (lightcurve res.nested k) i :=
  C110_fluxes (sized_model m noKw) (fun a st => BandFlux a.group (H st)) hne (fun s hs a ha => fluxes_of (hobs s hs a ha) (hgrid a ha)) hbuilt hrad hsave h

/-- The observer-frame spectrum of a redshifted model without effects: `(1 + z)` times the spectrum of the source (continued outside its wavelength range) at the
source-frame time and wavelength. -/
theorem C110_redshifted {m : SEDModel V W R ℝ} (hm : m.restEffects = [] ∧ m.obsEffects = []) (noKw : W) (st : SState ℝ) (p : Params ℝ) (z t0 : ℝ)
    (F : ℝ → ℝ → ℝ) (G : ℝ → ℝ → ℝ → ℝ) (hz1 : z ≠ -1) (hF : Pointwise m st F)
    (hG : (m.extrap = none ∧ G = fun _ _ _ => 0) ∨ ∃ ex, m.extrap = some ex ∧ PointwiseExt ex G)
    (hle : ∀ l h, m.minwave st = some l → m.maxwave st = some h → l ≤ h) (hp : st.get? m.nodeString = some p) (hr : m.applyRedshift = true)
    (hz : p.get? redshiftKey = some (.num z)) (ht : z ≠ 0 → p.get? t0Key = some (.num t0)) :
    Observes m noKw st (fun t w => (1 + z) * stretch (m.minwave st) (m.maxwave st) (F (t0 + (t - t0) / (1 + z))) G (w / (1 + z))) := by
  intro times waves r hw
  exact PhysicalProps.C32_evaluate m hm noKw noKw times waves st r p z t0 F G hz1 hF hG hle hw hp hr hz ht

/-! ### Sound input is simulated -/

/-- A passband the simulation can use: an exact grid of increasing wavelengths, not empty, with non-negative transmission. -/
structure GoodBand (pb : Passband ℝ) : Prop where
  grid : ExactGrid pb
  nonempty : pb.waves ≠ []
  increasing : pb.waves.IsChain (· < ·)
  trans : ∀ p ∈ pb.table, 0 ≤ p.2

/-- A sound LSST survey: a constructed table with a radius, its columns numbers (filters texts), and physical values in every row. -/
structure SoundTable (a : SurveyArg) : Prop where
  kind : a.kind = .opsim
  built : Built a.table
  radius : ∃ rad, a.table.radius = some rad ∧ 0 ≤ rad ∧ rad ≤ 180
  time : ∃ times : List ℝ, a.table.cols.get? "time".toList = some (times.map .num)
  filter : ∃ fs : List Name, a.table.cols.get? "filter".toList = some (fs.map .str)
  rotation : a.table.cols.has "rotation".toList = false ∨ ∃ rots : List ℝ, a.table.cols.get? "rotation".toList = some (rots.map .num)
  cols : ∀ name ∈ ["seeing".toList, "zp".toList, "skybrightness".toList, "exptime".toList, "nexposure".toList],
    ∃ c : List ℝ, a.table.cols.get? name = some (c.map .num)
  zp : ∀ q x, rowNum a.table "zp".toList q = some x → 0 < x
  exptime : ∀ q x, rowNum a.table "exptime".toList q = some x → 0 ≤ x
  nexposure : ∀ q x, rowNum a.table "nexposure".toList q = some x → 0 ≤ x
  scale : ∃ x, a.table.survey.get? "pixel_scale".toList = some (.num x)
  readNoise : ∃ x, a.table.survey.get? "read_noise".toList = some (.num x)
  dark : ∃ x, a.table.survey.get? "dark_current".toList = some (.num x) ∧ 0 ≤ x

/-- A sound LSST survey: a constructed table with a radius, its columns numbers (filters texts), physical values in every row, and a usable passband for every
filter. -/
structure SoundOpsim (a : SurveyArg) : Prop where
  kind : a.kind = .opsim
  built : Built a.table
  radius : ∃ rad, a.table.radius = some rad ∧ 0 ≤ rad ∧ rad ≤ 180
  time : ∃ times : List ℝ, a.table.cols.get? "time".toList = some (times.map .num)
  filter : ∃ fs : List Name, a.table.cols.get? "filter".toList = some (fs.map .str) ∧ ∀ f ∈ fs, ∃ pb, a.group.getItem f = .ok pb ∧ GoodBand pb
  rotation : a.table.cols.has "rotation".toList = false ∨ ∃ rots : List ℝ, a.table.cols.get? "rotation".toList = some (rots.map .num)
  cols : ∀ name ∈ ["seeing".toList, "zp".toList, "skybrightness".toList, "exptime".toList, "nexposure".toList],
    ∃ c : List ℝ, a.table.cols.get? name = some (c.map .num)
  zp : ∀ q x, rowNum a.table "zp".toList q = some x → 0 < x
  exptime : ∀ q x, rowNum a.table "exptime".toList q = some x → 0 ≤ x
  nexposure : ∀ q x, rowNum a.table "nexposure".toList q = some x → 0 ≤ x
  scale : ∃ x, a.table.survey.get? "pixel_scale".toList = some (.num x)
  readNoise : ∃ x, a.table.survey.get? "read_noise".toList = some (.num x)
  dark : ∃ x, a.table.survey.get? "dark_current".toList = some (.num x) ∧ 0 ≤ x

theorem SoundOpsim.table {a : SurveyArg} (h : SoundOpsim a) : SoundTable a :=
  ⟨h.kind, h.built, h.radius, h.time, (by obtain ⟨F, hF, _⟩ := h.filter; exact ⟨F, hF⟩), h.rotation, h.cols, h.zp, h.exptime, h.nexposure, h.scale, h.readNoise, h.dark⟩

theorem area_nonneg : ∀ (l : List (ℝ × ℝ)), (l.map (·.1)).IsChain (· < ·) → (∀ p ∈ l, 0 ≤ p.2) → 0 ≤ area l
  | [], _, _ => le_refl _
  | [_], _, _ => le_refl _
  | p :: q :: l, h, hp => by
    simp only [List.map_cons, List.isChain_cons_cons] at h
    have ih := area_nonneg (q :: l) (by simpa using h.2) (fun x hx => hp x (by simp [hx]))
    have h1 := hp p (by simp)
    have h2 := hp q (by simp)
    have h3 := h.1
    rw [area]
    have : 0 ≤ (q.1 - p.1) * (p.2 + q.2) / 2 := by
      apply div_nonneg _ (by norm_num)
      exact mul_nonneg (by linarith) (by linarith)
    linarith

theorem bandIntegral_nonneg {pb : Passband ℝ} (h : GoodBand pb) {H : ℝ → ℝ} (hH : ∀ w, 0 ≤ H w) : 0 ≤ bandIntegral pb H := by
  unfold bandIntegral
  apply area_nonneg
  · have := h.increasing
    rw [h.grid.1] at this
    simpa [List.map_map, Function.comp_def] using this
  · intro p hp
    obtain ⟨q, hq, rfl⟩ := List.mem_map.1 hp
    exact mul_nonneg (hH _) (h.trans q hq)

theorem eval_succeeds {m : SEDModel V W R ℝ} {noKw : W} {g : PassbandGroup ℝ} {st : SState ℝ} {H : ℝ → ℝ → ℝ} (hobs : ObservesIn m noKw st g H)
    {ts : List ℝ} {fs : List Name} (hl : fs.length = ts.length) (hf : ∀ f ∈ fs, ∃ pb, g.getItem f = .ok pb ∧ pb.waves ≠ []) (r : R) :
    ∃ p r1, evalModel m noKw g ts fs st r = .ok (p, r1) := by
  have hrow := observes_rowWise hobs r
  obtain ⟨res, hres⟩ := (BandfluxProps.loop_spec hrow g ts fs hl (npUnique fs) (ts.map fun _ => 0)
    (BandfluxProps.nodup_npUnique _) (fun f hf => (BandfluxProps.mem_npUnique _ _).1 hf) (by simp)).2 (by
      intro f hf' t
      obtain ⟨pb, hpb, hg⟩ := hf f ((BandfluxProps.mem_npUnique _ _).1 hf')
      unfold BandfluxProps.single
      rw [hpb]
      dsimp only
      rw [restricted_of _ hpb, hobs f pb hpb hg [t] r]
      simp only [List.map_cons, List.map_nil, Passband.bandflux]
      rw [if_neg (by simpa using hg), if_neg (by simp)]
      exact ⟨_, rfl⟩)
  obtain ⟨p, r1⟩ := res
  exact ⟨p, r1, (evalModel_restricted m noKw g ts fs st r r1 p).2 ⟨hl, hres⟩⟩

/-- The noise arguments of one LSST visit. -/
noncomputable def opsimNoise (exptime nexp seeing sky zp scale ro dark : ℝ) : NoiseArgs :=
  { exptime := exptime, count := nexp, psf := π / (2 * log 2) * (seeing / scale) ^ 2, sky := mag2flux sky * scale ^ 2 / zp, zp := zp, readout := .num ro, dark := dark }

theorem all_some {β : Type} : ∀ {l : List (Option β)}, (∀ (i : Nat) x, l[i]? = some x → ∃ y, x = some y) → ∃ l', l.mapM id = some l'
  | [], _ => ⟨[], rfl⟩
  | x :: l, h => by
    obtain ⟨y, rfl⟩ := h 0 x rfl
    obtain ⟨l', hl'⟩ := all_some (l := l) (fun i x hx => h (i + 1) x (by simpa using hx))
    exact ⟨y :: l', by rw [List.mapM_cons, hl']; rfl⟩

/-- The model answers for the filters of the table, with non-negative fluxes. -/
def Answers (ev : List ℝ → List Name → SState ℝ → R → Except Err (List ℝ × R)) (st : SState ℝ) (filters : List Name) : Prop :=
  ∀ ts fs r, fs.length = ts.length → (∀ f ∈ fs, f ∈ filters) → ∃ p, ev ts fs st r = .ok (p, r) ∧ p.length = ts.length ∧ ∀ x ∈ p, 0 ≤ x

theorem sound_usable {ev : SurveyArg → List ℝ → List Name → SState ℝ → R → Except Err (List ℝ × R)} (draw : R → ℝ × R) {states : List SimState} {a : SurveyArg} (ha : SoundTable a)
    (hans : ∀ s ∈ states, ∀ F : List Name, a.table.cols.get? "filter".toList = some (F.map .str) → Answers (ev a) s.state F) :
    SimulateProps.Usable (applyNoise draw) states (surveyWith ev a) := by
  obtain ⟨F, hF⟩ := ha.filter
  obtain ⟨hwf, -⟩ := ObsLemmas.built_spec ha.built
  refine ⟨ha.built, ha.radius, ha.time, ⟨F, hF⟩, ha.rotation, ?_⟩
  intro st hst rows ts fs r hrows ht hfl
  have lt : ts.length = rows.length := by have := congrArg List.length ht; simpa using this.symm
  have lf : fs.length = rows.length := by have := congrArg List.length hfl; simpa using this.symm
  have hfs : ∀ f ∈ fs, f ∈ F := by
    intro f hf
    obtain ⟨i, hi, rfl⟩ := List.getElem_of_mem hf
    obtain ⟨q, hq, e⟩ := map_some_get hfl.symm (List.getElem?_eq_getElem hi)
    have : entryOf a.table "filter".toList q = F[q]?.map Cell.str := by
      unfold entryOf
      rw [SimulateProps.getItem_direct hF]
      simp
    have e' : some (Cell.str fs[i]) = F[q]?.map Cell.str := by rw [← this]; exact e
    cases hFq : F[q]? with
    | none => rw [hFq] at e'; cases e'
    | some f' =>
      rw [hFq] at e'
      simp only [Option.map_some, Option.some.injEq, Cell.str.injEq] at e'
      rw [e']
      exact List.mem_of_getElem? hFq
  obtain ⟨p, hp, pl, hx⟩ := hans st hst F hF ts fs r (lf.trans lt.symm) hfs
  have hx0 : ∀ (i : Nat) x, p[i]? = some x → 0 ≤ x := fun i x h => hx x (List.mem_of_getElem? h)
  obtain ⟨dark, hd, hd0⟩ := ha.dark
  obtain ⟨out, hout⟩ := SurveyErrorProps.C69_opsim_succeeds (t := a.table) (flux := p) (index := rows) (pl.trans lt)
    (by
      intro name hname
      obtain ⟨c, hc⟩ := ha.cols name hname
      refine ⟨c, hc, fun i hi => ?_⟩
      have := hwf.1 _ (Dict.mem_of_get? hc)
      simp only [List.length_map] at this
      rw [this]; exact hrows i hi)
    (by
      intro key hkey
      simp only [List.mem_cons, List.not_mem_nil, or_false] at hkey
      rcases hkey with rfl | rfl | rfl
      · exact ha.scale
      · exact ha.readNoise
      · exact ⟨dark, hd⟩)
  have hspec := SurveyErrorProps.C69_opsim hout
  obtain ⟨_, hol, scale, ro, dark', s1, s2, s3, hrow⟩ := hspec
  rw [hd] at s3
  cases s3
  have herr : ∀ (i : Nat) x, out[i]? = some x → ∃ y, x = some y ∧ 0 ≤ y := by
    intro i x hx
    have hi : i < rows.length := by rw [← hol]; exact (List.getElem?_eq_some_iff.1 hx).1
    have hip : i < p.length := by omega
    obtain ⟨exptime, nexp, seeing, sky, zp, q1, q2, q3, q4, q5, q6⟩ := hrow i rows[i] p[i] (List.getElem?_eq_getElem hi) (List.getElem?_eq_getElem hip)
    rw [hx] at q6
    simp only [Option.some.injEq] at q6
    have z0 := ha.zp _ _ q5
    have hv : 0 ≤ totalVariance p[i] (opsimNoise exptime nexp seeing sky zp scale ro dark) := by
      have hp0 := hx0 i _ (List.getElem?_eq_getElem hip)
      have t0 := ha.exptime _ _ q1
      have n0 := ha.nexposure _ _ q2
      have hpsf : 0 ≤ π / (2 * log 2) * (seeing / scale) ^ 2 :=
        mul_nonneg (div_nonneg pi_pos.le (mul_nonneg (by norm_num) (log_nonneg (by norm_num)))) (sq_nonneg _)
      have hsky : 0 ≤ mag2flux sky * scale ^ 2 / zp :=
        div_nonneg (mul_nonneg (by unfold mag2flux; positivity) (sq_nonneg _)) z0.le
      unfold opsimNoise totalVariance readoutVariance
      dsimp only
      have a1 := div_nonneg hp0 z0.le
      have a2 := mul_nonneg hsky hpsf
      have a3 := mul_nonneg (mul_nonneg (sq_nonneg ro) hpsf) n0
      have a4 := mul_nonneg (mul_nonneg hd0 t0) hpsf
      linarith
    have hstd : poissonStd p[i] (opsimNoise exptime nexp seeing sky zp scale ro dark) = some (√(totalVariance p[i] (opsimNoise exptime nexp seeing sky zp scale ro dark)) * zp) := by
      unfold poissonStd
      rw [if_neg (show ¬ (opsimNoise exptime nexp seeing sky zp scale ro dark).zp = 0 from z0.ne'), if_neg (not_lt.2 hv)]
      rfl
    exact ⟨_, q6.trans hstd, mul_nonneg (sqrt_nonneg _) z0.le⟩
  obtain ⟨e, he⟩ := all_some (l := out) (fun i x hx => by obtain ⟨y, h1, _⟩ := herr i x hx; exact ⟨y, h1⟩)
  have hmap : out = e.map some := ObsLemmas.mapM_id_some.1 he
  have hel : e.length = rows.length := by rw [← hol, hmap, List.length_map]
  have hfin : (surveyWith ev a).error p rows = .ok e := by
    show finiteErrors a.kind a.table p rows = .ok e
    unfold finiteErrors
    rw [ha.kind]
    show (match opsimError a.table p rows with | .error e => _ | .ok l => _) = _
    rw [hout]
    dsimp only
    rw [he]
  obtain ⟨o, ho⟩ := (PhotometryProps.C42_noise draw p e r).2.2 ⟨by omega, by
    intro y hy
    obtain ⟨i, hi, rfl⟩ := List.getElem_of_mem hy
    obtain ⟨z, h1, h2⟩ := herr i (some e[i]) (by rw [hmap, List.getElem?_map, List.getElem?_eq_getElem hi]; rfl)
    cases h1; exact h2⟩
  obtain ⟨o1, o2⟩ := o
  have hn := (PhotometryProps.C42_noise draw p e r).1 o1 o2 ho
  exact ⟨p, r, e, (o1, o2), hp, by omega, hfin, hel, ho, by simp only; omega⟩

theorem answers_of {m : SEDModel V W R ℝ} {noKw : W} {a : SurveyArg} (ha : SoundOpsim a) {st : SState ℝ} {H : ℝ → ℝ → ℝ} (hobs : ObservesIn m noKw st a.group H)
    (hpos : ∀ t w, 0 ≤ H t w) (hgrid : ∀ f pb, a.group.getItem f = .ok pb → ExactGrid pb) (F : List Name)
    (hF : a.table.cols.get? "filter".toList = some (F.map .str)) : Answers (evalModel m noKw a.group) st F := by
  intro ts fs r hl hfs
  obtain ⟨F', hF', hFb⟩ := ha.filter
  have : F = F' := by
    rw [hF] at hF'
    exact List.map_injective_iff.2 (fun x y e => by cases e; rfl) (Option.some.inj hF')
  subst this
  obtain ⟨p, r1, hp⟩ := eval_succeeds hobs hl (fun f hf => (hFb f (hfs f hf)).imp fun _ h => ⟨h.1, h.2.nonempty⟩) r
  obtain ⟨rfl, pl, -, hval⟩ := eval_values hobs hgrid hp
  refine ⟨p, hp, pl, fun x hx => ?_⟩
  obtain ⟨i, hi, rfl⟩ := List.getElem_of_mem hx
  have hi1 : i < ts.length := by omega
  have hi' : i < fs.length := by omega
  obtain ⟨pb, h1, h2⟩ := hval i ts[i] fs[i] (List.getElem?_eq_getElem hi1) (List.getElem?_eq_getElem hi')
  rw [List.getElem?_eq_getElem hi] at h2
  rw [Option.some.inj h2]
  obtain ⟨pb', h3, h4⟩ := hFb _ (hfs fs[i] (List.getElem_mem hi'))
  rw [h1] at h3
  cases h3
  exact bandIntegral_nonneg h4 (hpos _)

/-- C110. The simulation succeeds, for any model that answers for the filters of the survey, on any sound LSST surveys (one at most for a BandfluxModel), for any objects
with positions (and with t0 if a time window is given), whether they are ever observed or not. -/
theorem C110_answers {ev : SurveyArg → List ℝ → List Name → SState ℝ → R → Except Err (List ℝ × R)} {isBand : Bool} (draw : R → ℝ × R) {states : List SimState}
    {args : List SurveyArg} {offset : Option (List (Option ℝ))} (hne : states ≠ []) (hband : isBand = false ∨ args.length ≤ 1)
    (hans : ∀ s ∈ states, ∀ a ∈ args, ∀ F : List Name, a.table.cols.get? "filter".toList = some (F.map .str) → Answers (ev a) s.state F) (hsound : ∀ a ∈ args, SoundTable a)
    (hat : ∀ s ∈ states, ∃ ra dec, s.ra = some ra ∧ s.dec = some dec)
    (hoff : offset = none ∨ ∃ before after, offset = some [before, after] ∧ ∀ s ∈ states, ∃ t, s.t0 = some t) (r : R) :
    ∃ res r', simulateWith isBand ev draw states args [] offset r = .ok (res, r') := by
  have := SimulateProps.C40_succeeds (noise := applyNoise draw) (isBand := isBand) (surveys := args.map (surveyWith ev)) hne (by simpa using hband) hat hoff
    (by
      intro s hs
      obtain ⟨a, ha, rfl⟩ := List.mem_map.1 hs
      exact sound_usable draw (hsound a ha) (fun s hs => hans s hs a ha)) r
  rw [List.length_map] at this
  exact this

/-- C110. The simulation of an SED model with a non-negative spectrum succeeds on any sound LSST surveys, for any objects with positions (and with t0 if a time
window is given), whether they are ever observed or not. -/
theorem C110_succeeds {m : SEDModel V W R ℝ} {noKw : W} (draw : R → ℝ × R) {states : List SimState} {args : List SurveyArg}
    {offset : Option (List (Option ℝ))} (H : SState ℝ → ℝ → ℝ → ℝ) (hne : states ≠ [])
    (hobs : ∀ s ∈ states, ∀ a ∈ args, ObservesIn m noKw s.state a.group (H s.state)) (hpos : ∀ s ∈ states, ∀ t w, 0 ≤ H s.state t w)
    (hgrid : ∀ a ∈ args, ∀ f pb, a.group.getItem f = .ok pb → ExactGrid pb) (hsound : ∀ a ∈ args, SoundOpsim a)
    (hat : ∀ s ∈ states, ∃ ra dec, s.ra = some ra ∧ s.dec = some dec)
    (hoff : offset = none ∨ ∃ before after, offset = some [before, after] ∧ ∀ s ∈ states, ∃ t, s.t0 = some t) (r : R) :
    ∃ res r', simulate m noKw draw states args [] offset r = .ok (res, r') :=
  C110_answers draw hne (Or.inl rfl) (fun s hs a ha => answers_of (hsound a ha) (hobs s hs a ha) (hpos s hs) (hgrid a ha))
    (fun a ha => (hsound a ha).table) hat hoff r

/-! ### A concrete run -/

open LCL.ObsTable

/-- One LSST visit, in the columns `OpSim` needs. -/
noncomputable def lsstRows : Dict Name (List Cell) :=
  [("ra".toList, [.num 0]), ("dec".toList, [.num 0]), ("time".toList, [.num 7]), ("filter".toList, [.str "g".toList]), ("zp".toList, [.num 2]),
   ("seeing".toList, [.num 1]), ("skybrightness".toList, [.num 20]), ("exptime".toList, [.num 30]), ("nexposure".toList, [.num 1])]

noncomputable def lsstValues : Dict Name SVal :=
  [("radius".toList, .num 1), ("pixel_scale".toList, .num 0.2), ("read_noise".toList, .num 8.8), ("dark_current".toList, .num 0.2)]

noncomputable def lsstTable : ObsTable := ⟨lsstRows, [0], [], lsstValues, ["g".toList], [toCart 0 0], none⟩

theorem lsst_unique : uniqueFilters lsstRows = .ok ["g".toList] := by
  unfold uniqueFilters
  have h : lsstRows.get? "filter".toList = some [.str "g".toList] := rfl
  rw [h]
  have h2 : List.mapM Cell.str? [.str "g".toList] = .ok ["g".toList] := rfl
  simp only [h2]
  have : npUnique ["g".toList] = ["g".toList] := by
    unfold npUnique
    rw [List.mergeSort_of_pairwise]
    · decide
    · simp
  rw [this]

theorem lsst_init : ObsTable.init baseRequired (fun t => .ok t) lsstRows [0] [] lsstValues none = .ok lsstTable := by
  have h1 : numCol lsstRows "ra".toList = .ok [0] := rfl
  have h2 : numCol lsstRows "dec".toList = .ok [0] := rfl
  have h3 : rename [] lsstRows = lsstRows := rfl
  unfold ObsTable.init
  simp only [remap, h3]
  rw [if_pos (by decide), lsst_unique]
  simp only
  rw [if_pos (by simp [ObsTable.contains, lsstRows, Dict.has, Dict.get?])]
  simp only [buildTree, h1, h2]
  rfl

theorem lsst_built : Built lsstTable :=
  .init (by simp [lsstRows]) (by decide) (by simp) (by intro u u' h e; cases e; exact h) lsst_init

/-- A triangular passband. -/
noncomputable def gBand : Passband ℝ :=
  ⟨"LSST_g".toList, "g".toList, [(1, 0), (2, 1), (3, 0)], [(1, 0), (2, 1), (3, 0)], [1, 2, 3], none⟩

noncomputable def gGroup : PassbandGroup ℝ := ⟨[("LSST_g".toList, gBand)], [("g".toList, ["LSST_g".toList])], [1, 2, 3], [("LSST_g".toList, .slice 0 3)]⟩

noncomputable def lsstArg : SurveyArg := ⟨.opsim, lsstTable, gGroup⟩

theorem gBand_grid : ExactGrid gBand := ⟨rfl, by intro d h; cases h⟩

theorem gBand_good : GoodBand gBand :=
  ⟨gBand_grid, by simp [gBand], by simp [gBand]; norm_num, by
    intro p hp
    simp only [gBand, List.mem_cons, List.not_mem_nil, or_false] at hp
    rcases hp with rfl | rfl | rfl <;> norm_num⟩

theorem gGroup_grid : ∀ f pb, gGroup.getItem f = .ok pb → ExactGrid pb := by
  intro f pb h
  unfold PassbandGroup.getItem at h
  have key : ∀ k pb, gGroup.passbands.get? k = some pb → pb = gBand := by
    intro k pb h
    have h' : ("LSST_g".toList, gBand) ∈ gGroup.passbands := by simp [gGroup]
    have := Dict.mem_of_get? h
    simp only [gGroup, List.mem_singleton] at this
    cases this; rfl
  cases h1 : gGroup.passbands.get? f with
  | some b => rw [h1] at h; cases h; rw [key _ _ h1]; exact gBand_grid
  | none =>
    rw [h1] at h; dsimp only at h
    cases h2 : gGroup.filterToName.get? f with
    | none => rw [h2] at h; cases h
    | some l =>
      rw [h2] at h; dsimp only at h
      split at h
      · cases h
      · cases h3 : gGroup.passbands.get? (l.headD []) with
        | none => rw [h3] at h; cases h
        | some b => rw [h3] at h; cases h; rw [key _ _ h3]; exact gBand_grid

theorem one_row {n : Name} {v : ℝ} (hc : lsstTable.cols.get? n = some [.num v]) {q : Nat} {x : ℝ} (h : rowNum lsstTable n q = some x) : x = v := by
  unfold rowNum at h
  rw [hc] at h
  cases q with
  | zero => simpa using h.symm
  | succ q => simp at h

theorem lsst_sound : SoundOpsim lsstArg where
  kind := rfl
  built := lsst_built
  radius := ⟨1, rfl, by norm_num, by norm_num⟩
  time := ⟨[7], rfl⟩
  filter := ⟨["g".toList], rfl, by intro f hf; rw [List.mem_singleton] at hf; subst hf; exact ⟨gBand, rfl, gBand_good⟩⟩
  rotation := Or.inl rfl
  cols := by
    intro name hn
    simp only [List.mem_cons, List.not_mem_nil, or_false] at hn
    rcases hn with rfl | rfl | rfl | rfl | rfl
    exacts [⟨[1], rfl⟩, ⟨[2], rfl⟩, ⟨[20], rfl⟩, ⟨[30], rfl⟩, ⟨[1], rfl⟩]
  zp := by intro q x h; rw [one_row (v := 2) rfl h]; norm_num
  exptime := by intro q x h; rw [one_row (v := 30) rfl h]; norm_num
  nexposure := by intro q x h; rw [one_row (v := 1) rfl h]; norm_num
  scale := ⟨0.2, rfl⟩
  readNoise := ⟨8.8, rfl⟩
  dark := ⟨0.2, rfl, by norm_num⟩

/-- A source of constant flux 5 at redshift 1. -/
noncomputable def constModel : SEDModel Unit Unit Nat ℝ where
  nodeString := "source".toList
  setters := []
  computeSed := fun _ _ times waves => .ok (times.map fun _ => waves.map fun _ => 5)
  minwave := fun _ => none
  maxwave := fun _ => none
  extrap := none
  applyRedshift := true
  restEffects := []
  obsEffects := []

noncomputable def constState (ra : ℝ) : SimState :=
  { state := [("source".toList, [(redshiftKey, .num 1), (t0Key, .num 3)])], ra := some ra, dec := some 0, t0 := some 3 }

theorem const_observes (ra : ℝ) : Observes constModel () (constState ra).state (fun _ _ => 10) := by
  have := C110_redshifted (m := constModel) ⟨rfl, rfl⟩ () (constState ra).state [(redshiftKey, .num 1), (t0Key, .num 3)] 1 3 (fun _ _ => 5) (fun _ _ _ => 0)
    (by norm_num) (fun _ _ _ => rfl) (Or.inl ⟨rfl, rfl⟩) (by intro l h h1; cases h1) rfl rfl rfl (fun _ => rfl)
  have e : (fun (t w : ℝ) => (1 + 1) * stretch (constModel.minwave (constState ra).state) (constModel.maxwave (constState ra).state)
      ((fun (_ _ : ℝ) => (5 : ℝ)) (3 + (t - 3) / (1 + 1))) (fun _ _ _ => 0) (w / (1 + 1))) = fun _ _ => (10 : ℝ) := by
    funext t w
    simp only [stretch, constModel, Option.filter_none]
    norm_num
  rw [e] at this
  exact this

example (draw : Nat → ℝ × Nat) : ∃ res r', simulate constModel () draw [constState 0, constState 90] [lsstArg, lsstArg] [] (some [some 1, none]) 4 = .ok (res, r') ∧
    (∀ c ∈ baseCols, (lightcurve res.nested 1 c).length = res.nobs[1]?.getD 7) := by
  have hobs : ∀ s ∈ [constState 0, constState 90], Observes constModel () s.state (fun _ _ => 10) := by
    intro s hs; simp only [List.mem_cons, List.not_mem_nil, or_false] at hs; rcases hs with rfl | rfl <;> exact const_observes _
  have harg : ∀ a ∈ [lsstArg, lsstArg], a = lsstArg := by intro a ha; simpa using ha
  obtain ⟨res, r', h⟩ := C110_succeeds (m := constModel) (noKw := ()) draw (states := [constState 0, constState 90]) (args := [lsstArg, lsstArg])
    (offset := some [some 1, none]) (fun _ _ _ => 10) (by simp) (fun s hs a _ => observes_in (hobs s hs) a.group) (by intros; norm_num)
    (by intro a ha; rw [harg a ha]; exact gGroup_grid) (by intro a ha; rw [harg a ha]; exact lsst_sound)
    (by intro s hs; simp only [List.mem_cons, List.not_mem_nil, or_false] at hs; rcases hs with rfl | rfl <;> exact ⟨_, _, rfl, rfl⟩)
    (Or.inr ⟨_, _, rfl, by intro s hs; simp only [List.mem_cons, List.not_mem_nil, or_false] at hs; rcases hs with rfl | rfl <;> exact ⟨_, rfl⟩⟩) 4
  obtain ⟨-, -, -, -, -, hk⟩ := C110_measured (fun _ _ _ => 10) (by simp) (fun s hs a _ => observes_in (hobs s hs) a.group) (by intro a ha; rw [harg a ha]; exact gGroup_grid)
    (by intro a ha; rw [harg a ha]; exact lsst_built) (by intro a ha; rw [harg a ha]; exact ⟨1, rfl, by norm_num, by norm_num⟩) (by simp) h
  obtain ⟨ra, dec, obs, -, -, hn, -, -, hlen, -⟩ := hk 1 (constState 90) rfl
  exact ⟨res, r', h, by intro c hc; rw [hn, hlen c hc]; rfl⟩

end LCL.EndToEndProps
