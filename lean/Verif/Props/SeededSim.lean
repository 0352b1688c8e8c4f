import Verif.Model.SeededSim
import Verif.Props.Simulate
import Verif.Props.WhiteNoise

/-!
# Property C92: a simulation with a given generator is reproducible
-/

namespace LCL.SeededProps
open LCL LCL.EffectLib LCL.SeededSim LCL.SimulateProps LCL.RandomNodes ObsTable ObsTableProps

variable {ρ : Type}

/-- The outcome of a run as far as it can be repeated: the result and the generator given, not the entropy. -/
def visible {α : Type} (x : Except Err (α × Rng ρ)) : Except Err (α × Option ρ) :=
  match x with
  | .error e => .error e
  | .ok (a, r) => .ok (a, r.given)

/-- The same for results that carry a count. -/
def visible3 {α β : Type} (x : Except Err (α × β × Rng ρ)) : Except Err (α × β × Option ρ) :=
  match x with
  | .error e => .error e
  | .ok (a, b, r) => .ok (a, b, r.given)

/-- The model draws no random numbers when it is evaluated. -/
def DrawsNothing (evaluate : List ℝ → List Name → SState ℝ → Rng ρ → Except Err (List ℝ × Rng ρ)) : Prop :=
  ∀ ts fs st e e', visible (evaluate ts fs st ⟨none, e⟩) = visible (evaluate ts fs st ⟨none, e'⟩)

theorem visible_cases {α : Type} {x y : Except Err (α × Rng ρ)} (h : visible x = visible y) :
    (∃ e, x = .error e ∧ y = .error e) ∨ ∃ a r r', x = .ok (a, r) ∧ y = .ok (a, r') ∧ r.given = r'.given := by
  cases x with
  | error e =>
    cases y with
    | error e' => cases h; exact Or.inl ⟨e, rfl, rfl⟩
    | ok q => cases h
  | ok q =>
    cases y with
    | error e' => cases h
    | ok q' =>
      obtain ⟨a, r⟩ := q
      obtain ⟨a', r'⟩ := q'
      simp only [visible, Except.ok.injEq, Prod.mk.injEq] at h
      exact Or.inr ⟨a, r, r', rfl, by rw [h.1], h.2⟩

theorem visible3_cases {α β : Type} {x y : Except Err (α × β × Rng ρ)} (h : visible3 x = visible3 y) :
    (∃ e, x = .error e ∧ y = .error e) ∨ ∃ a b r r', x = .ok (a, b, r) ∧ y = .ok (a, b, r') ∧ r.given = r'.given := by
  cases x with
  | error e =>
    cases y with
    | error e' => cases h; exact Or.inl ⟨e, rfl, rfl⟩
    | ok q => cases h
  | ok q =>
    cases y with
    | error e' => cases h
    | ok q' =>
      obtain ⟨a, b, r⟩ := q
      obtain ⟨a', b', r'⟩ := q'
      simp only [visible3, Except.ok.injEq, Prod.mk.injEq] at h
      exact Or.inr ⟨a, b, r, r', rfl, by rw [h.1, h.2.1], h.2.2⟩

/-- A generator is given and is the same. -/
def Seeded (r r' : Rng ρ) : Prop := r.given = r'.given ∧ r.given.isSome

theorem eval_visible {evaluate : List ℝ → List Name → SState ℝ → Rng ρ → Except Err (List ℝ × Rng ρ)} (h : DrawsNothing evaluate)
    (ts : List ℝ) (fs : List Name) (st : SState ℝ) {r r' : Rng ρ} (hr : Seeded r r') :
    visible (simEval evaluate ts fs st r) = visible (simEval evaluate ts fs st r') ∧
    ∀ b r1, simEval evaluate ts fs st r = .ok (b, r1) → r1.given = r.given := by
  constructor
  · unfold simEval
    rcases visible_cases (h ts fs st r.entropy r'.entropy) with ⟨e, h1, h2⟩ | ⟨a, q, q', h1, h2, -⟩
    · rw [h1, h2]
    · rw [h1, h2]; simp [visible, hr.1]
  · intro b r1 hb
    unfold simEval at hb
    split at hb
    · cases hb
    · cases hb; rfl

theorem noise_visible (draw : ρ → ℝ × ρ) (p e : List ℝ) {r r' : Rng ρ} (hr : Seeded r r') :
    visible (simNoise draw p e r) = visible (simNoise draw p e r') ∧
    ∀ b r1, simNoise draw p e r = .ok (b, r1) → r1.given.isSome := by
  obtain ⟨g, en⟩ := r
  obtain ⟨g', en'⟩ := r'
  obtain ⟨h1, h2⟩ := hr
  dsimp only at h1 h2
  subst h1
  cases g with
  | none => cases h2
  | some g =>
    unfold simNoise
    dsimp only
    cases applyNoise draw p e g with
    | error err => exact ⟨rfl, by intro b r1 h; cases h⟩
    | ok q => exact ⟨rfl, by intro b r1 h; cases h; rfl⟩

section
variable {draw : ρ → ℝ × ρ} {mask : Option (List ℝ → SState ℝ → List Bool)} {saveCols : List Name}

theorem one_visible {idx k : Nat} {st : SState ℝ} {s : Survey (Rng ρ)}
    (hs : ∃ t ev er, s = simSurvey t ev er ∧ DrawsNothing ev) {times : List ℝ} {filters : List Name} {oi : ObsIndex} {nd : Nested}
    {r r' : Rng ρ} (hr : Seeded r r') :
    visible3 (simulateOne (simNoise draw) mask saveCols idx k st s times filters oi nd r) =
      visible3 (simulateOne (simNoise draw) mask saveCols idx k st s times filters oi nd r') ∧
    ∀ a b r1, simulateOne (simNoise draw) mask saveCols idx k st s times filters oi nd r = .ok (a, b, r1) → r1.given.isSome := by
  obtain ⟨t, ev, er, rfl, hev⟩ := hs
  unfold simulateOne
  cases hsel : selectObs mask times filters st oi with
  | error e => exact ⟨rfl, by intro a b r1 h; cases h⟩
  | ok q =>
    obtain ⟨oi', ts, fs⟩ := q
    dsimp only [simSurvey]
    obtain ⟨hv, hg⟩ := eval_visible hev ts fs st hr
    rcases visible_cases hv with ⟨e, h1, h2⟩ | ⟨a, q, q', h1, h2, h3⟩
    · rw [h1, h2]; exact ⟨rfl, by intro a b r1 h; cases h⟩
    · rw [h1, h2]
      dsimp only
      have hq : Seeded q q' := ⟨h3, by rw [hg _ _ h1]; exact hr.2⟩
      cases her : er a oi'.rows with
      | error e => exact ⟨rfl, by intro a b r1 h; cases h⟩
      | ok err =>
        dsimp only
        obtain ⟨hn, hn2⟩ := noise_visible draw a err hq
        rcases visible_cases hn with ⟨e, n1, n2⟩ | ⟨f, w, w', n1, n2, n3⟩
        · rw [n1, n2]; exact ⟨rfl, by intro a b r1 h; cases h⟩
        · rw [n1, n2]
          dsimp only
          have hw := hn2 _ _ n1
          generalize saveAll t oi' ts.length saveCols _ = x
          cases x with
          | error e => exact ⟨rfl, by intro a b r1 h; cases h⟩
          | ok d => exact ⟨by simp only [visible3, n3], by intro a b r1 h; cases h; exact hw⟩

theorem surveys_visible {idx : Nat} {st : SState ℝ} : ∀ (ps : List (Prepared (Rng ρ)))
    (_ : ∀ p ∈ ps, ∃ t ev er, p.survey = simSurvey t ev er ∧ DrawsNothing ev) (k total : Nat) (nd : Nested) (r r' : Rng ρ) (_ : Seeded r r'),
    visible3 (simulateSurveys (simNoise draw) mask saveCols idx st k ps total nd r) =
      visible3 (simulateSurveys (simNoise draw) mask saveCols idx st k ps total nd r') ∧
    ∀ a b r1, simulateSurveys (simNoise draw) mask saveCols idx st k ps total nd r = .ok (a, b, r1) → r1.given.isSome
  | [], _, k, total, nd, r, r', hr => by
    refine ⟨by simp [simulateSurveys, visible3, hr.1], ?_⟩
    intro a b r1 h
    simp only [simulateSurveys, Except.ok.injEq, Prod.mk.injEq] at h
    rw [← h.2.2]; exact hr.2
  | p :: ps, hps, k, total, nd, r, r', hr => by
    unfold simulateSurveys
    cases hm : p.matched[idx]? with
    | none => exact ⟨rfl, by intro a b r1 h; cases h⟩
    | some oi =>
      dsimp only
      obtain ⟨h1, h2⟩ := one_visible (draw := draw) (mask := mask) (saveCols := saveCols) (idx := idx) (k := k) (st := st)
        (hps p (List.mem_cons_self ..)) (times := p.times) (filters := p.filters) (oi := oi) (nd := nd) hr
      rcases visible3_cases h1 with ⟨e, x1, x2⟩ | ⟨a, b, q, q', x1, x2, x3⟩
      · rw [x1, x2]; exact ⟨rfl, by intro a b r1 h; cases h⟩
      · rw [x1, x2]
        exact surveys_visible ps (fun p hp => hps p (List.mem_cons_of_mem _ hp)) _ _ _ _ _ ⟨x3, h2 _ _ _ x1⟩

theorem objects_visible {ps : List (Prepared (Rng ρ))}
    (hps : ∀ p ∈ ps, ∃ t ev er, p.survey = simSurvey t ev er ∧ DrawsNothing ev) : ∀ (states : List SimState) (idx : Nat) (nd : Nested)
    (r r' : Rng ρ) (_ : Seeded r r'),
    visible3 (simulateObjects (simNoise draw) mask saveCols ps idx states nd r) =
      visible3 (simulateObjects (simNoise draw) mask saveCols ps idx states nd r')
  | [], idx, nd, r, r', hr => by simp [simulateObjects, visible3, hr.1]
  | s :: ss, idx, nd, r, r', hr => by
    unfold simulateObjects
    obtain ⟨h1, h2⟩ := surveys_visible (draw := draw) (mask := mask) (saveCols := saveCols) (idx := idx) (st := s.state) ps hps 0 0 nd r r' hr
    rcases visible3_cases h1 with ⟨e, x1, x2⟩ | ⟨a, b, q, q', x1, x2, x3⟩
    · rw [x1, x2]
    · rw [x1, x2]
      dsimp only
      rcases visible3_cases (objects_visible hps ss (idx + 1) a q q' ⟨x3, h2 _ _ _ x1⟩) with ⟨e, y1, y2⟩ | ⟨c, d, w, w', y1, y2, y3⟩
      · rw [y1, y2]
      · rw [y1, y2]; simp only [visible3, y3]

end

theorem mapM_survey {states : List SimState} {tmin tmax : ObsTable.TArg} : ∀ (surveys : List (Survey (Rng ρ))) (ps : List (Prepared (Rng ρ))),
    surveys.mapM (prepare states tmin tmax) = .ok ps → ∀ p ∈ ps, p.survey ∈ surveys
  | [], ps, h => by
    simp only [List.mapM_nil] at h
    cases h
    simp
  | s :: surveys, ps, h => by
    rw [List.mapM_cons] at h
    cases hp : prepare states tmin tmax s with
    | error e => rw [hp] at h; cases h
    | ok p =>
      rw [hp] at h
      cases hr : surveys.mapM (prepare states tmin tmax) with
      | error e => rw [hr] at h; cases h
      | ok qs =>
        rw [hr] at h
        cases h
        intro x hx
        rcases List.mem_cons.1 hx with rfl | hx
        · have := (prepare_ok hp).1
          exact List.mem_cons.2 (Or.inl (by
            unfold prepare at hp
            split at hp
            · cases hp
            · split at hp
              · cases hp
              · split at hp
                · cases hp
                · cases hp; rfl))
        · exact List.mem_cons_of_mem _ (mapM_survey surveys qs hr x hx)

/-- C92, the part that holds: with a generator given, a simulation of the same sampled states from the same generator gives the
same result and leaves the generator in the same state, whatever the entropy of the system, if the evaluation of the model draws
no random numbers. Missing: models and effects that draw random numbers when they are evaluated (see
`C92_white_noise_counterexample`). -/
theorem C92_seeded_partial (draw : ρ → ℝ × ρ) (isBand : Bool) (states : List SimState) (surveys : List (Survey (Rng ρ))) (npb : Nat)
    (saveCols : List Name) (mask : Option (List ℝ → SState ℝ → List Bool)) (offset : Option (List (Option ℝ))) (g e e' : ρ)
    (hs : ∀ s ∈ surveys, ∃ t ev er, s = simSurvey t ev er ∧ DrawsNothing ev) :
    visible (simulateLightcurves (simNoise draw) isBand states surveys npb saveCols mask offset ⟨some g, e⟩) =
      visible (simulateLightcurves (simNoise draw) isBand states surveys npb saveCols mask offset ⟨some g, e'⟩) := by
  unfold simulateLightcurves
  split
  · rfl
  · split
    · rfl
    · split
      · rfl
      · cases getTimeWindows (t0Of states) offset with
        | error e => rfl
        | ok w =>
          obtain ⟨tmin, tmax⟩ := w
          dsimp only
          cases hp : surveys.mapM (prepare states tmin tmax) with
          | error e => rfl
          | ok ps =>
            dsimp only
            have hps : ∀ p ∈ ps, ∃ t ev er, p.survey = simSurvey t ev er ∧ DrawsNothing ev :=
              fun p hpm => hs _ (mapM_survey surveys ps hp p hpm)
            rcases visible3_cases (objects_visible (draw := draw) (mask := mask) (saveCols := saveCols) hps states 0
              (emptyNested saveCols) ⟨some g, e⟩ ⟨some g, e'⟩ ⟨rfl, rfl⟩) with ⟨e, y1, y2⟩ | ⟨c, d, w, w', y1, y2, y3⟩
            · rw [y1, y2]
            · rw [y1, y2]
              dsimp only
              cases checkNested c with
              | error e => rfl
              | ok nd => simp only [visible, y3]

/-! ## White noise -/

/-- A bandflux model with flux 50 and white noise of scale 2. -/
noncomputable def noisyModel (G : RStream ρ ℝ) : BandModel Unit (Rng ρ) ℝ :=
  ⟨"s".toList, [], fun ts _ _ r => .ok (ts.map fun _ => 50, r), [whiteNoise G () false]⟩

noncomputable def noisySurvey (G : RStream ρ ℝ) : Survey (Rng ρ) :=
  simSurvey twoTable (noisyModel G).evaluateBandfluxesSingle (fun p _ => .ok (p.map fun _ => 0))

/-- An object at (0, 0) with the scale of the noise in its state. -/
noncomputable def noisyObject : SimState :=
  { state := [("s".toList, [("white_noise_sigma".toList, .num 2)])], ra := some 0, dec := some 0, t0 := some 7 }

/-- What is known of the survey before the loops. -/
noncomputable def preparedTwo (s : Survey (Rng ρ)) : Prepared (Rng ρ) :=
  { survey := s, times := [7, 8], filters := ["g".toList, "r".toList], matched := [{ rows := [0, 1], untyped := false }] }

theorem prepare_two (s : Survey (Rng ρ)) (hs : s.table = twoTable) : prepare [noisyObject] .none .none s = .ok (preparedTwo s) := by
  have hrad : twoTable.radius = some 1 := rfl
  have hr : (none <|> twoTable.radius) = some 1 := rfl
  have hq : queryPoints (.arr [some 0]) (.arr [some 0]) = .ok [(0, 0)] := by simp [queryPoints, QArg.values]
  have h : twoTable.rangeSearch (.arr [some 0]) (.arr [some 0]) none .none .none = .ok (.many [[0, 1]]) := by
    unfold rangeSearch
    rw [hq]
    simp only [hr, List.map_cons, List.map_nil, ball_near, timeStep, TArg.isNone, and_self, if_true]
    rfl
  have h1 : searchAll s.table [noisyObject] .none .none = .ok [{ rows := [0, 1], untyped := false }] := by
    have hs' : twoTable.rangeSearch (.arr ([noisyObject].map (·.ra))) (.arr ([noisyObject].map (·.dec))) none
        .none .none = .ok (.many [[0, 1]]) := h
    rw [hs]
    unfold searchAll
    rw [hs']
    have hrad' : twoTable.radius = some 1 := hrad
    simp only [hrad', noisyObject]
    simp only [List.zipWith, ball_near]
    rfl
  have h2 : timeCol s.table = .ok [7, 8] := by rw [hs]; rfl
  have h3 : textCol s.table = .ok ["g".toList, "r".toList] := by rw [hs]; rfl
  unfold prepare
  rw [h1, h2, h3]
  rfl

theorem noisy_value (G : RStream ρ ℝ) (r : Rng ρ) :
    simEval (noisyModel G).evaluateBandfluxesSingle [7, 8] ["g".toList, "r".toList] noisyObject.state r =
      .ok ([50 + 2 * G.val r.entropy 0, 50 + 2 * G.val r.entropy 1], ⟨r.given, G.adv r.entropy 2⟩) := by
  have hp : localParams noisyObject.state "s".toList = .ok [("white_noise_sigma".toList, .num 2)] := rfl
  have hs := WhiteNoiseProps.sigma_num (p := [("white_noise_sigma".toList, .num 2)]) (s := 2) rfl (by norm_num)
  unfold simEval BandModel.evaluateBandfluxesSingle
  simp only [noisyModel, hp, List.map_cons, List.map_nil, applyBandEffects, whiteNoise, hs]
  rfl

theorem noNoise_two (draw : ρ → ℝ × ρ) (x y : ℝ) (g e : ρ) :
    simNoise draw [x, y] [0, 0] ⟨some g, e⟩ = .ok ([x, y], ⟨some (draw (draw g).2).2, e⟩) := by
  simp [simNoise, applyNoise]

theorem noisy_run (G : RStream ρ ℝ) (draw : ρ → ℝ × ρ) (g e : ρ) :
    ∃ res r', simulateLightcurves (simNoise draw) true [noisyObject] [noisySurvey G] 1 [] none none ⟨some g, e⟩ = .ok (res, r') ∧
      lightcurve res.nested 0 "flux_perfect".toList = [.num (50 + 2 * G.val e 0), .num (50 + 2 * G.val e 1)] ∧
      lightcurve res.nested 0 "flux".toList = [.num (50 + 2 * G.val e 0), .num (50 + 2 * G.val e 1)] := by
  have hp : [noisySurvey G].mapM (prepare [noisyObject] .none .none) = .ok [preparedTwo (noisySurvey G)] := by
    simp only [List.mapM_cons, List.mapM_nil]
    rw [prepare_two _ rfl]
    rfl
  have hw : getTimeWindows (t0Of [noisyObject]) none = .ok (.none, .none) := rfl
  have hsel : selectObs none [7, 8] ["g".toList, "r".toList] noisyObject.state { rows := [0, 1], untyped := false } =
      .ok ({ rows := [0, 1], untyped := false }, [7, 8], ["g".toList, "r".toList]) := rfl
  unfold simulateLightcurves
  rw [if_neg (by simp), if_neg (by simp), if_neg (by simp), hw]
  dsimp only
  rw [hp]
  simp only [preparedTwo, simulateObjects, simulateSurveys, List.getElem?_cons_zero, simulateOne, hsel]
  simp only [noisySurvey, simSurvey, noisy_value, List.map_cons, List.map_nil, noNoise_two]
  refine ⟨_, _, rfl, ?_, ?_⟩ <;> rfl

/-- C92 fails for a model with white noise: the generator given to simulate_lightcurves does not reach the evaluation, so the
fluxes come from the entropy of the system: two runs with the same generator differ whenever the entropies give different
draws, and runs with different generators agree when the entropy does. -/
theorem C92_white_noise_counterexample (G : RStream ρ ℝ) (draw : ρ → ℝ × ρ) (g g' e e' : ρ) (h : G.val e 0 ≠ G.val e' 0) :
    ∃ res1 res2 res3 r1 r2 r3,
      simulateLightcurves (simNoise draw) true [noisyObject] [noisySurvey G] 1 [] none none ⟨some g, e⟩ = .ok (res1, r1) ∧
      simulateLightcurves (simNoise draw) true [noisyObject] [noisySurvey G] 1 [] none none ⟨some g, e'⟩ = .ok (res2, r2) ∧
      simulateLightcurves (simNoise draw) true [noisyObject] [noisySurvey G] 1 [] none none ⟨some g', e⟩ = .ok (res3, r3) ∧
      lightcurve res1.nested 0 "flux".toList ≠ lightcurve res2.nested 0 "flux".toList ∧
      lightcurve res1.nested 0 "flux_perfect".toList ≠ lightcurve res2.nested 0 "flux_perfect".toList ∧
      lightcurve res1.nested 0 "flux_perfect".toList = lightcurve res3.nested 0 "flux_perfect".toList := by
  obtain ⟨res1, r1, h1, h2, h3⟩ := noisy_run G draw g e
  obtain ⟨res2, r2, h4, h5, h6⟩ := noisy_run G draw g e'
  obtain ⟨res3, r3, h7, h8, -⟩ := noisy_run G draw g' e
  refine ⟨res1, res2, res3, r1, r2, r3, h1, h4, h7, ?_, ?_, ?_⟩
  · rw [h3, h6]
    intro hc
    apply h
    simpa using (List.cons.inj hc).1
  · rw [h2, h5]
    intro hc
    apply h
    simpa using (List.cons.inj hc).1
  · rw [h2, h8]

/-- The hypothesis of `C92_seeded_partial` is met by a model without noise. -/
example : DrawsNothing (ρ := ρ) (fun ts _ _ r => .ok (ts.map fun _ => 50, r)) := fun _ _ _ _ _ => rfl

/-- The hypothesis of the counterexample is met by the counting generator. -/
example : WhiteNoiseProps.counting.val 0 0 ≠ WhiteNoiseProps.counting.val 1 0 := by simp [WhiteNoiseProps.counting]

end LCL.SeededProps
