import Verif.Spec.Brighter
import Verif.Props.EndToEnd
import Verif.Props.Passband2

/-!
# Property C140: brighter sources in a survey
-/

namespace LCL.BrighterProps
open LCL LCL.PassbandSpec LCL.EndToEndSpec LCL.EndToEnd LCL.EndToEndProps LCL.BrighterSpec LCL.SimSpec LCL.ObsSpec LCL.PhotSpec Real
variable {R V W V' W' : Type}

/-! ## Integrals over a passband -/

theorem area_mono (H H' : ℝ → ℝ) : ∀ (l : List (ℝ × ℝ)), (l.map (·.1)).IsChain (· < ·) → (∀ p ∈ l, 0 ≤ p.2) → (∀ p ∈ l, H p.1 ≤ H' p.1) →
    area (l.map fun p => (p.1, H p.1 * p.2)) ≤ area (l.map fun p => (p.1, H' p.1 * p.2))
  | [], _, _, _ => le_refl _
  | [_], _, _, _ => le_refl _
  | p :: q :: l, h, h0, hH => by
    simp only [List.map_cons, List.isChain_cons_cons] at h
    have ih := area_mono H H' (q :: l) (by simpa using h.2) (fun x hx => h0 x (List.mem_cons_of_mem _ hx)) (fun x hx => hH x (List.mem_cons_of_mem _ hx))
    simp only [List.map_cons] at ih ⊢
    rw [area, area]
    have p1 := mul_le_mul_of_nonneg_right (hH p (by simp)) (h0 p (by simp))
    have p2 := mul_le_mul_of_nonneg_right (hH q (by simp)) (h0 q (by simp))
    have hd : 0 ≤ q.1 - p.1 := by linarith [h.1]
    have : (q.1 - p.1) * (H p.1 * p.2 + H q.1 * q.2) ≤ (q.1 - p.1) * (H' p.1 * p.2 + H' q.1 * q.2) := mul_le_mul_of_nonneg_left (by linarith) hd
    linarith

theorem area_scale (c : ℝ) : ∀ (l : List (ℝ × ℝ)), area (l.map fun p => (p.1, c * p.2)) = c * area l
  | [] => by simp [area]
  | [_] => by simp [area]
  | p :: q :: l => by
    have ih := area_scale c (q :: l)
    simp only [List.map_cons] at ih ⊢
    rw [area, area, ih]
    ring

theorem integral_mono {pb : Passband ℝ} (hg : pb.waves = pb.table.map (·.1)) (h : Normal pb) {H H' : ℝ → ℝ} (hH : ∀ w ∈ pb.waves, H w ≤ H' w) :
    bandIntegral pb H ≤ bandIntegral pb H' := by
  unfold bandIntegral
  refine area_mono H H' pb.table (by rw [← hg]; exact h.increasing) h.trans (fun p hp => hH p.1 ?_)
  rw [hg]
  exact List.mem_map_of_mem hp

theorem integral_const {pb : Passband ℝ} (h : Normal pb) (c : ℝ) : bandIntegral pb (fun _ => c) = c := by
  unfold bandIntegral
  rw [area_scale, h.area, mul_one]

/-! ## The noise of a row -/

theorem noise_unique {k : Kind} {t : ObsTable} {q : Nat} {a b : NoiseArgs} (ha : NoiseOf k t q a) (hb : NoiseOf k t q b) : a = b := by
  unfold NoiseOf at ha hb
  cases k with
  | opsim =>
    obtain ⟨x1, x2, x3, x4, x5, x6, x7, x8, a1, a2, a3, a4, a5, a6, a7, a8, rfl⟩ := ha
    obtain ⟨y1, y2, y3, y4, y5, y6, y7, y8, b1, b2, b3, b4, b5, b6, b7, b8, rfl⟩ := hb
    rw [a1] at b1; rw [a2] at b2; rw [a3] at b3; rw [a4] at b4; rw [a5] at b5; rw [a6] at b6; rw [a7] at b7; rw [a8] at b8
    cases b1; cases b2; cases b3; cases b4; cases b5; cases b6; cases b7; cases b8
    rfl
  | ztf =>
    obtain ⟨x1, x2, x3, x4, x5, x6, x7, a1, a2, a3, a4, a5, a6, a7, rfl⟩ := ha
    obtain ⟨y1, y2, y3, y4, y5, y6, y7, b1, b2, b3, b4, b5, b6, b7, rfl⟩ := hb
    rw [a1] at b1; rw [a2] at b2; rw [a3] at b3; rw [a4] at b4; rw [a5] at b5; rw [a6] at b6; rw [a7] at b7
    cases b1; cases b2; cases b3; cases b4; cases b5; cases b6; cases b7
    rfl
  | roman =>
    obtain ⟨x1, x2, x3, x4, x5, x6, x7, a1, a2, a3, a4, a5, a6, a7, rfl⟩ := ha
    obtain ⟨y1, y2, y3, y4, y5, y6, y7, b1, b2, b3, b4, b5, b6, b7, rfl⟩ := hb
    rw [a1] at b1; rw [a2] at b2; rw [a3] at b3; rw [a4] at b4; rw [a5] at b5; rw [a6] at b6; rw [a7] at b7
    cases b1; cases b2; cases b3; cases b4; cases b5; cases b6; cases b7
    rfl

theorem obs_ext {l l' : List (Nat × Nat)} (h : l.Pairwise (fun x y => x.1 < y.1 ∨ x.1 = y.1 ∧ x.2 < y.2)) (h' : l'.Pairwise (fun x y => x.1 < y.1 ∨ x.1 = y.1 ∧ x.2 < y.2))
    (he : ∀ j q, (j, q) ∈ l ↔ (j, q) ∈ l') : l = l' := by
  have ne : ∀ {x y : Nat × Nat}, (x.1 < y.1 ∨ x.1 = y.1 ∧ x.2 < y.2) → x ≠ y := by
    rintro ⟨a, b⟩ ⟨c, d⟩ h he
    cases he
    dsimp only at h
    omega
  exact ((List.perm_ext_iff_of_nodup (h.imp ne) (h'.imp ne)).2 (fun x => he x.1 x.2)).eq_of_pairwise (fun a b _ _ h1 h2 => absurd h1 (by omega)) h h'

/-! ## Two sources in one survey -/

/-- C140, for any two models: simulated over the same objects, surveys and generator, they have the same observations (times, filters, surveys, number of random numbers used);
and where every flux the one may have is at most every flux the other may have, so are the fluxes and their errors. -/
theorem C140_fluxes {ev ev' : SurveyArg → List ℝ → List Name → SState ℝ → R → Except Err (List ℝ × R)} (hev : Sized ev) (hev' : Sized ev') {isBand isBand' : Bool} {draw : R → ℝ × R}
    {states : List SimState} {args : List SurveyArg} {saveCols : List Name} {offset : Option (List (Option ℝ))} {r r1 r2 : R} {res res' : SimResult}
    (P P' : SurveyArg → SState ℝ → Name → ℝ → ℝ → Prop) (hne : args ≠ []) (hobs : ∀ s ∈ states, ∀ a ∈ args, Fluxes (ev a) s.state (P a s.state))
    (hobs' : ∀ s ∈ states, ∀ a ∈ args, Fluxes (ev' a) s.state (P' a s.state)) (hbuilt : ∀ a ∈ args, Built a.table)
    (hrad : ∀ a ∈ args, ∃ rad, a.table.radius = some rad ∧ 0 ≤ rad ∧ rad ≤ 180) (hsave : saveCols.Nodup ∧ ∀ c ∈ saveCols, c ∉ baseCols) (hzp : ∀ a ∈ args, PositiveZp a)
    (h : simulateWith isBand ev draw states args saveCols offset r = .ok (res, r1)) (h' : simulateWith isBand' ev' draw states args saveCols offset r = .ok (res', r2)) :
    res'.nobs = res.nobs ∧ r2 = r1 ∧ ∀ (k : Nat) (s : SimState), states[k]? = some s →
      (∀ c ∈ ["mjd".toList, "filter".toList, "survey_idx".toList], lightcurve res'.nested k c = lightcurve res.nested k c) ∧
      ((∀ a ∈ args, ∀ f t x x', P a s.state f t x → P' a s.state f t x' → x ≤ x') → ∀ c ∈ ["flux_perfect".toList, "fluxerr".toList], ∀ i x x',
        At (lightcurve res.nested k c) i x → At (lightcurve res'.nested k c) i x' → x ≤ x') := by
  obtain ⟨-, -, -, n1, g1, m1⟩ := C110_fluxes hev P hne hobs hbuilt hrad hsave h
  obtain ⟨-, -, -, n2, g2, m2⟩ := C110_fluxes hev' P' hne hobs' hbuilt hrad hsave h'
  have hn : res'.nobs = res.nobs := by
    apply List.ext_getElem?
    intro k
    cases hk : states[k]? with
    | none =>
      have hk' : states.length ≤ k := List.getElem?_eq_none_iff.1 hk
      rw [List.getElem?_eq_none_iff.2 (by omega), List.getElem?_eq_none_iff.2 (by omega)]
    | some s =>
      obtain ⟨ra, dec, obs, a1, a2, a3, a4, a5, -⟩ := m1 k s hk
      obtain ⟨ra', dec', obs', b1, b2, b3, b4, b5, -⟩ := m2 k s hk
      rw [a1] at b1; rw [a2] at b2; cases b1; cases b2
      rw [a3, b3, obs_ext b4 a4 (fun j q => (b5 j q).trans (a5 j q).symm)]
  refine ⟨hn, by rw [g1, g2, hn], ?_⟩
  intro k s hk
  obtain ⟨ra, dec, obs, a1, a2, a3, a4, a5, a6, a7⟩ := m1 k s hk
  obtain ⟨ra', dec', obs', b1, b2, b3, b4, b5, b6, b7⟩ := m2 k s hk
  rw [a1] at b1; rw [a2] at b2; cases b1; cases b2
  have he : obs' = obs := obs_ext b4 a4 (fun j q => (b5 j q).trans (a5 j q).symm)
  subst he
  constructor
  · intro c hc
    have hcb : c ∈ baseCols := by
      simp only [List.mem_cons, List.not_mem_nil, or_false] at hc
      rcases hc with rfl | rfl | rfl <;> decide
    apply List.ext_getElem?
    intro i
    cases hi : obs'[i]? with
    | none =>
      have hi' : obs'.length ≤ i := List.getElem?_eq_none_iff.1 hi
      rw [List.getElem?_eq_none_iff.2 (by rw [b6 c hcb]; exact hi'), List.getElem?_eq_none_iff.2 (by rw [a6 c hcb]; exact hi')]
    | some p =>
      obtain ⟨j, q⟩ := p
      obtain ⟨a, ha, t, f, x, nz, err, c1, c2, -, -, -, -, -, c8, c9, -, -, -, c13⟩ := a7 i j q hi
      obtain ⟨a', ha', t', f', x', nz', err', d1, d2, -, -, -, -, -, d8, d9, -, -, -, d13⟩ := b7 i j q hi
      rw [ha] at ha'; cases ha'
      rw [c1] at d1; rw [c2] at d2; cases d1; cases d2
      simp only [List.mem_cons, List.not_mem_nil, or_false] at hc
      rcases hc with rfl | rfl | rfl
      · rw [c8, d8]
      · rw [c9, d9]
      · rw [c13, d13]
  · intro hP c hc i x x' hx hx'
    have hcb : c ∈ baseCols := by
      simp only [List.mem_cons, List.not_mem_nil, or_false] at hc
      rcases hc with rfl | rfl <;> decide
    have hil : i < obs'.length := by
      rw [← a6 c hcb]
      exact (List.getElem?_eq_some_iff.1 hx).1
    rcases hp : obs'[i] with ⟨j, q⟩
    have hi : obs'[i]? = some (j, q) := by rw [List.getElem?_eq_getElem hil, hp]
    obtain ⟨a, ha, t, f, y, nz, err, c1, c2, c3, c4, -, c6, c7, -, -, c10, c11, -, -⟩ := a7 i j q hi
    obtain ⟨a', ha', t', f', y', nz', err', d1, d2, d3, d4, -, d6, d7, -, -, d10, d11, -, -⟩ := b7 i j q hi
    rw [ha] at ha'; cases ha'
    rw [c1] at d1; rw [c2] at d2; cases d1; cases d2
    have ham : a ∈ args := List.mem_of_getElem? ha
    have := noise_unique c4 d4
    subst this
    have hyy := hP a ham f t y y' c3 d3
    unfold At at hx hx'
    simp only [List.mem_cons, List.not_mem_nil, or_false] at hc
    rcases hc with rfl | rfl
    · rw [c10] at hx; rw [d10] at hx'
      cases hx; cases hx'
      exact hyy
    · rw [c11] at hx; rw [d11] at hx'
      cases hx; cases hx'
      have hz := hzp a ham q nz c4
      rw [c7, d7]
      apply mul_le_mul_of_nonneg_right _ hz.le
      apply sqrt_le_sqrt
      unfold totalVariance
      have := div_le_div_of_nonneg_right hyy hz.le
      linarith

/-- C140: two sources simulated over the same objects, surveys and generator have the same observations, and the one that is fainter at all times and at all wavelengths of the
passbands has at most the flux and at most the error of the other in every observation. -/
theorem C140_brighter {m : SEDModel V W R ℝ} {m' : SEDModel V' W' R ℝ} {noKw : W} {noKw' : W'} {draw : R → ℝ × R} {states : List SimState} {args : List SurveyArg} {saveCols : List Name}
    {offset : Option (List (Option ℝ))} {r r1 r2 : R} {res res' : SimResult} (H H' : SState ℝ → ℝ → ℝ → ℝ) (hne : args ≠ [])
    (hobs : ∀ s ∈ states, ∀ a ∈ args, ObservesIn m noKw s.state a.group (H s.state)) (hobs' : ∀ s ∈ states, ∀ a ∈ args, ObservesIn m' noKw' s.state a.group (H' s.state))
    (hgrid : ∀ a ∈ args, ∀ f pb, a.group.getItem f = .ok pb → ExactGrid pb ∧ Normal pb) (hbuilt : ∀ a ∈ args, Built a.table)
    (hrad : ∀ a ∈ args, ∃ rad, a.table.radius = some rad ∧ 0 ≤ rad ∧ rad ≤ 180) (hsave : saveCols.Nodup ∧ ∀ c ∈ saveCols, c ∉ baseCols) (hzp : ∀ a ∈ args, PositiveZp a)
    (hH : ∀ s ∈ states, Fainter args (H s.state) (H' s.state))
    (h : simulate m noKw draw states args saveCols offset r = .ok (res, r1)) (h' : simulate m' noKw' draw states args saveCols offset r = .ok (res', r2)) :
    res'.nobs = res.nobs ∧ r2 = r1 ∧ ∀ k, k < states.length →
      (∀ c ∈ ["mjd".toList, "filter".toList, "survey_idx".toList], lightcurve res'.nested k c = lightcurve res.nested k c) ∧
      ∀ c ∈ ["flux_perfect".toList, "fluxerr".toList], ∀ i x x', At (lightcurve res.nested k c) i x → At (lightcurve res'.nested k c) i x' → x ≤ x' := by
  obtain ⟨e1, e2, e3⟩ := C140_fluxes (sized_model m noKw) (sized_model m' noKw') (fun a st => BandFlux a.group (H st)) (fun a st => BandFlux a.group (H' st)) hne
    (fun s hs a ha => fluxes_of (hobs s hs a ha) (fun f pb hp => (hgrid a ha f pb hp).1)) (fun s hs a ha => fluxes_of (hobs' s hs a ha) (fun f pb hp => (hgrid a ha f pb hp).1))
    hbuilt hrad hsave hzp h h'
  refine ⟨e1, e2, fun k hk => ?_⟩
  have hks := List.getElem?_eq_getElem hk
  obtain ⟨e4, e5⟩ := e3 k _ hks
  refine ⟨e4, e5 ?_⟩
  rintro a ha f t x x' ⟨pb, hp, rfl⟩ ⟨pb', hp', rfl⟩
  rw [hp] at hp'; cases hp'
  exact integral_mono (hgrid a ha f pb hp).1.1 (hgrid a ha f pb hp).2 (hH _ (List.getElem_mem hk) a ha f pb hp t)

/-- C140: the flux in a filter is an average of the spectrum over the filter's wavelengths: it lies between any bounds the spectrum keeps there. -/
theorem C140_average {m : SEDModel V W R ℝ} {noKw : W} {draw : R → ℝ × R} {states : List SimState} {args : List SurveyArg} {saveCols : List Name}
    {offset : Option (List (Option ℝ))} {r r1 : R} {res : SimResult} (H : SState ℝ → ℝ → ℝ → ℝ) (hne : args ≠ [])
    (hobs : ∀ s ∈ states, ∀ a ∈ args, ObservesIn m noKw s.state a.group (H s.state))
    (hgrid : ∀ a ∈ args, ∀ f pb, a.group.getItem f = .ok pb → ExactGrid pb ∧ Normal pb) (hbuilt : ∀ a ∈ args, Built a.table)
    (hrad : ∀ a ∈ args, ∃ rad, a.table.radius = some rad ∧ 0 ≤ rad ∧ rad ≤ 180) (hsave : saveCols.Nodup ∧ ∀ c ∈ saveCols, c ∉ baseCols)
    (h : simulate m noKw draw states args saveCols offset r = .ok (res, r1)) {k i : Nat} {s : SimState} (hk : states[k]? = some s) {t x : ℝ} {f : Name} {j : Nat} {a : SurveyArg}
    {pb : Passband ℝ} (ht : At (lightcurve res.nested k "mjd".toList) i t) (hf : (lightcurve res.nested k "filter".toList)[i]? = some (.text f))
    (hj : (lightcurve res.nested k "survey_idx".toList)[i]? = some (.survey j)) (hx : At (lightcurve res.nested k "flux_perfect".toList) i x) (ha : args[j]? = some a)
    (hpb : a.group.getItem f = .ok pb) {lo hi : ℝ} (hlo : ∀ w ∈ pb.waves, lo ≤ H s.state t w) (hhi : ∀ w ∈ pb.waves, H s.state t w ≤ hi) : lo ≤ x ∧ x ≤ hi := by
  obtain ⟨-, -, -, -, -, m1⟩ := C110_measured H hne hobs (fun a ha f pb hp => (hgrid a ha f pb hp).1) hbuilt hrad hsave h
  obtain ⟨ra, dec, obs, a1, a2, a3, a4, a5, a6, a7⟩ := m1 k s hk
  have hil : i < obs.length := by
    rw [← a6 "mjd".toList (by decide)]
    exact (List.getElem?_eq_some_iff.1 ht).1
  rcases hp : obs[i] with ⟨j', q⟩
  have hi' : obs[i]? = some (j', q) := by rw [List.getElem?_eq_getElem hil, hp]
  obtain ⟨a', ha', t', f', y, nz, err, c1, c2, ⟨pb', hpb', rfl⟩, c4, -, c6, c7, c8, c9, c10, c11, -, c13⟩ := a7 i j' q hi'
  unfold At at ht hx
  rw [c8] at ht; rw [c9] at hf; rw [c10] at hx; rw [c13] at hj
  cases ht; cases hf; cases hx; cases hj
  rw [ha] at ha'; cases ha'
  rw [hpb] at hpb'; cases hpb'
  obtain ⟨g1, g2⟩ := hgrid a (List.mem_of_getElem? ha) f pb hpb
  constructor
  · have := integral_mono g1.1 g2 hlo
    rwa [integral_const g2] at this
  · have := integral_mono g1.1 g2 hhi
    rwa [integral_const g2] at this

/-- Every passband the constructor makes has increasing wavelengths, transmissions that are not negative and of integral one. -/
theorem C140_normal {t : List (ℝ × ℝ)} {survey f : Name} {delta q : Option ℝ} {units : String} {pb : Passband ℝ} (hp : PassbandSpec.Physical t) (hd : ∀ d, delta = some d → 0 < d)
    (h : Passband.init t survey f delta q units = .ok pb) : Normal pb ∧ pb.waves = pb.table.map (·.1) := by
  have hb := PassbandProps.init_built hp hd h
  refine ⟨⟨?_, fun p hp => (hb.nonneg p hp).2, hb.area⟩, hb.waves⟩
  have := hb.steps
  unfold Steps at this
  exact this.imp (fun a b h => by linarith)

theorem gBand_normal : Normal gBand := by
  refine ⟨gBand_good.increasing, gBand_good.trans, ?_⟩
  simp only [gBand, area]
  norm_num

theorem gGroup_bands {f : Name} {pb : Passband ℝ} (h : gGroup.getItem f = .ok pb) : pb = gBand := by
  have key : ∀ k pb, gGroup.passbands.get? k = some pb → pb = gBand := by
    intro k pb h
    have := Dict.mem_of_get? h
    simp only [gGroup, List.mem_singleton, Prod.mk.injEq] at this
    exact this.2
  unfold PassbandGroup.getItem at h
  split at h
  · rename_i hk; cases h; exact key _ _ hk
  · split at h
    · cases h
    · split at h
      · cases h
      · split at h
        · rename_i hk; cases h; exact key _ _ hk
        · cases h

/-- A source with the flat spectrum `c`, seen at redshift one. -/
noncomputable def levelModel (c : ℝ) : SEDModel Unit Unit Nat ℝ where
  nodeString := "source".toList
  setters := []
  computeSed := fun _ _ times waves => .ok (times.map fun _ => waves.map fun _ => c)
  minwave := fun _ => none
  maxwave := fun _ => none
  extrap := none
  applyRedshift := true
  restEffects := []
  obsEffects := []

theorem level_observes (c ra : ℝ) : Observes (levelModel c) () (constState ra).state (fun _ _ => 2 * c) := by
  have := C110_redshifted (m := levelModel c) ⟨rfl, rfl⟩ () (constState ra).state [(redshiftKey, .num 1), (t0Key, .num 3)] 1 3 (fun _ _ => c) (fun _ _ _ => 0)
    (by norm_num) (fun _ _ _ => rfl) (Or.inl ⟨rfl, rfl⟩) (by intro l h h1; cases h1) rfl rfl rfl (fun _ => rfl)
  have e : (fun (t w : ℝ) => (1 + 1) * PhysSpec.stretch ((levelModel c).minwave (constState ra).state) ((levelModel c).maxwave (constState ra).state)
      ((fun (_ _ : ℝ) => c) (3 + (t - 3) / (1 + 1))) (fun _ _ _ => 0) (w / (1 + 1))) = fun _ _ => 2 * c := by
    funext t w
    simp only [PhysSpec.stretch, levelModel, Option.filter_none]
    norm_num
  rw [e] at this
  exact this

/-- The hypotheses of `C140_brighter` and `C140_average` for two flat sources in an LSST survey. -/
example (draw : Nat → ℝ × Nat) : ∃ res r1 res' r2, simulate (levelModel 5) () draw [constState 0, constState 90] [lsstArg] [] none 4 = .ok (res, r1) ∧
    simulate (levelModel 7) () draw [constState 0, constState 90] [lsstArg] [] none 4 = .ok (res', r2) ∧ res'.nobs = res.nobs ∧
    ∀ i x x', At (lightcurve res.nested 0 "fluxerr".toList) i x → At (lightcurve res'.nested 0 "fluxerr".toList) i x' → x ≤ x' := by
  have hobs : ∀ c, ∀ s ∈ [constState 0, constState 90], ∀ a ∈ [lsstArg], ObservesIn (levelModel c) () s.state a.group (fun _ _ => 2 * c) := by
    intro c s hs a _; simp only [List.mem_cons, List.not_mem_nil, or_false] at hs; rcases hs with rfl | rfl <;> exact observes_in (level_observes _ _) a.group
  have harg : ∀ a ∈ [lsstArg], a = lsstArg := by intro a ha; simpa using ha
  have run : ∀ c : ℝ, 0 ≤ c → ∃ res r', simulate (levelModel c) () draw [constState 0, constState 90] [lsstArg] [] none 4 = .ok (res, r') := by
    intro c hc
    exact C110_succeeds (m := levelModel c) (noKw := ()) draw (states := [constState 0, constState 90]) (args := [lsstArg])
      (offset := none) (fun _ _ _ => 2 * c) (by simp) (hobs c) (by intros; linarith)
      (by intro a ha; rw [harg a ha]; exact gGroup_grid) (by intro a ha; rw [harg a ha]; exact lsst_sound)
      (by intro s hs; simp only [List.mem_cons, List.not_mem_nil, or_false] at hs; rcases hs with rfl | rfl <;> exact ⟨_, _, rfl, rfl⟩)
      (Or.inl rfl) 4
  obtain ⟨res, r1, h1⟩ := run 5 (by norm_num)
  obtain ⟨res', r2, h2⟩ := run 7 (by norm_num)
  obtain ⟨e1, -, e3⟩ := C140_brighter (fun _ _ _ => 2 * 5) (fun _ _ _ => 2 * 7) (by simp) (hobs 5) (hobs 7)
    (by intro a ha f pb hp; rw [harg a ha] at hp; rw [gGroup_bands hp]; exact ⟨gBand_grid, gBand_normal⟩)
    (by intro a ha; rw [harg a ha]; exact lsst_built) (by intro a ha; rw [harg a ha]; exact ⟨1, rfl, by norm_num, by norm_num⟩) (by simp)
    (by
      intro a ha q n hn
      rw [harg a ha] at hn
      obtain ⟨x1, x2, x3, x4, x5, x6, x7, zp, a1, a2, a3, a4, a5, a6, a7, a8, rfl⟩ := hn
      show 0 < zp
      rcases q with _ | q
      · have : rowNum lsstTable "zp".toList 0 = some 2 := rfl
        rw [show lsstArg.table = lsstTable from rfl, this] at a8
        cases a8; norm_num
      · have : rowNum lsstTable "zp".toList (q + 1) = none := rfl
        rw [show lsstArg.table = lsstTable from rfl, this] at a8
        cases a8)
    (by intro s _ a _ f pb _ t w _; norm_num) h1 h2
  exact ⟨res, r1, res', r2, h1, h2, e1, (e3 0 (by simp)).2 _ (by simp)⟩

end LCL.BrighterProps
