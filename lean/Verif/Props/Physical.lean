import Verif.Props.Extrapolation

/-!
# Properties C31 (own filter and time), C32 (redshift), C33 (effects)
-/

namespace LCL.PhysicalProps
open LCL LCL.PhysSpec LCL.PhysLemmas
variable {K : Type} [Field K] [LinearOrder K] {V W R : Type}

/-! ## C33 -/

theorem applyEffects_iff (p : Params K) (times waves : List K) (es : List (Effect V R K)) (r : R) (a : Mat K)
    (out : Mat K × R) : applyEffects p times waves es r a = .ok out ↔ Applied p times waves es (a, r) out := by
  induction es generalizing r a with
  | nil =>
    constructor
    · intro h; simp only [applyEffects, Except.ok.injEq] at h; subst h; exact .nil _
    · intro h; cases h; rfl
  | cons e es ih =>
    simp only [applyEffects]
    constructor
    · intro h
      split at h
      · cases h
      · rename_i a' r' he
        exact .cons he ((ih _ _).1 h)
    · intro h
      cases h with
      | @cons _ _ _ y _ he h =>
        obtain ⟨a', r'⟩ := y
        simp only at he
        rw [he]
        exact (ih _ _).2 h

theorem redshiftOf_iff (flag : Bool) (p : Params K) (zs : Option (K × K)) :
    redshiftOf flag p = .ok zs ↔ Frame flag p zs := by
  unfold redshiftOf
  cases flag with
  | false =>
    simp only [Bool.false_eq_true, if_false, Except.ok.injEq]
    constructor
    · rintro rfl; exact .off rfl
    · intro h
      cases h with
      | off _ => rfl
      | zero _ => rfl
      | shifted h => cases h
  | true =>
    simp only [if_true]
    cases hz : p.get? redshiftKey with
    | none =>
      constructor
      · intro h; cases h
      · intro h
        cases h with
        | off h => cases h
        | zero h => rw [hz] at h; cases h
        | shifted _ _ h => rw [hz] at h; cases h
    | some v =>
      cases v with
      | none =>
        constructor
        · intro h; cases h
        · intro h
          cases h with
          | off h => cases h
          | zero h => rw [hz] at h; cases h
          | shifted _ _ h => rw [hz] at h; cases h
      | str s =>
        constructor
        · intro h
          exfalso
          revert h
          cases p.get? t0Key with
          | none => simp
          | some w => cases w <;> simp
        · intro h
          cases h with
          | off h => cases h
          | zero h => rw [hz] at h; cases h
          | shifted _ _ h => rw [hz] at h; cases h
      | num z =>
        simp only
        by_cases h0 : z = 0
        · rw [if_pos h0]
          subst h0
          constructor
          · intro h; cases h; exact .zero hz
          · intro h
            cases h with
            | off h => cases h
            | zero h => rfl
            | shifted _ hn h => rw [hz] at h; cases h; exact absurd rfl hn
        · rw [if_neg h0]
          cases ht : p.get? t0Key with
          | none =>
            constructor
            · intro h; cases h
            · intro h
              cases h with
              | off h => cases h
              | zero h => rw [hz] at h; cases h; exact absurd rfl h0
              | shifted _ _ _ h => rw [ht] at h; cases h
          | some w =>
            cases w with
            | none =>
              constructor
              · intro h; cases h
              · intro h
                cases h with
                | off h => cases h
                | zero h => rw [hz] at h; cases h; exact absurd rfl h0
                | shifted _ _ _ h => rw [ht] at h; cases h
            | str s =>
              constructor
              · intro h; cases h
              · intro h
                cases h with
                | off h => cases h
                | zero h => rw [hz] at h; cases h; exact absurd rfl h0
                | shifted _ _ _ h => rw [ht] at h; cases h
            | num t0 =>
              constructor
              · intro h; cases h; exact .shifted rfl h0 hz ht
              · intro h
                cases h with
                | off h => cases h
                | zero h => rw [hz] at h; cases h; exact absurd rfl h0
                | shifted _ _ h h' => rw [hz] at h; rw [ht] at h'; cases h; cases h'; rfl

theorem restTimes_eq (zs : Option (K × K)) (times : List K) :
    restTimesOf zs times = times.map (frameTime zs) := by
  cases zs with
  | none => simp only [restTimesOf, frameTime]; exact (List.map_id'' (fun _ => rfl) _).symm
  | some q =>
    obtain ⟨z, t0⟩ := q
    simp only [restTimesOf]
    apply List.map_congr_left
    intro t _
    simp only [obsToRestTime, frameTime]
    ring

theorem restWaves_eq (zs : Option (K × K)) (waves : List K) :
    restWavesOf zs waves = waves.map (frameWave zs) := by
  cases zs with
  | none => simp only [restWavesOf, frameWave]; exact (List.map_id'' (fun _ => rfl) _).symm
  | some q => rfl

theorem scaled_eq (zs : Option (K × K)) (a : Mat K) :
    scaleBack zs a =
      a.map fun row => row.map fun x => x * frameFactor zs := by
  cases zs with
  | none => simp [scaleBack, frameFactor]
  | some q => rfl

theorem evaluateSingle_iff (m : SEDModel V W R K) (noKw kw : W) (times waves : List K) (st : SState K) (r : R)
    (out : Mat K × R) :
    m.evaluateSingle noKw times waves st r kw = .ok out ↔
    ∃ p zs a mid, st.get? m.nodeString = some p ∧ Frame m.applyRedshift p zs ∧
      m.sedExtrapolated noKw (times.map (frameTime zs)) (waves.map (frameWave zs)) st kw = .ok a ∧
      Applied p (times.map (frameTime zs)) (waves.map (frameWave zs)) m.restEffects (a, r) mid ∧
      Applied p times waves m.obsEffects (mid.1.map (fun row => row.map fun x => x * frameFactor zs), mid.2) out := by
  unfold SEDModel.evaluateSingle localParams
  cases hp : st.get? m.nodeString with
  | none => simp
  | some p =>
    simp only
    cases hz : redshiftOf m.applyRedshift p with
    | error e =>
      simp only
      constructor
      · intro h; cases h
      · rintro ⟨p', zs, _, _, h1, h2, _⟩
        cases h1
        rw [(redshiftOf_iff _ _ _).2 h2] at hz
        cases hz
    | ok zs =>
      simp only [restTimes_eq, restWaves_eq, scaled_eq]
      constructor
      · intro h
        split at h
        · cases h
        · rename_i a ha
          split at h
          · cases h
          · rename_i a' r' he
            exact ⟨p, zs, a, (a', r'), rfl, (redshiftOf_iff _ _ _).1 hz, ha, (applyEffects_iff _ _ _ _ _ _ _).1 he,
              (applyEffects_iff _ _ _ _ _ _ _).1 h⟩
      · rintro ⟨p', zs', a, mid, h1, h2, h3, h4, h5⟩
        cases h1
        rw [(redshiftOf_iff _ _ _).2 h2] at hz
        cases hz
        rw [h3]
        simp only
        rw [(applyEffects_iff _ _ _ _ _ _ _).2 h4]
        exact (applyEffects_iff _ _ _ _ _ _ _).2 h5

theorem added_effects (hist : List (Effect V R K × Bool)) (m : SEDModel V W R K) :
    (hist.foldl (fun m e => m.addEffect e.1 e.2) m).restEffects =
      m.restEffects ++ (hist.map (·.1)).filter (fun e => e.restFrame) ∧
    (hist.foldl (fun m e => m.addEffect e.1 e.2) m).obsEffects =
      m.obsEffects ++ (hist.map (·.1)).filter (fun e => !e.restFrame) ∧
    (hist.foldl (fun m e => m.addEffect e.1 e.2) m).nodeString = m.nodeString ∧
    (hist.foldl (fun m e => m.addEffect e.1 e.2) m).applyRedshift = m.applyRedshift ∧
    (hist.foldl (fun m e => m.addEffect e.1 e.2) m).computeSed = m.computeSed ∧
    (hist.foldl (fun m e => m.addEffect e.1 e.2) m).minwave = m.minwave ∧
    (hist.foldl (fun m e => m.addEffect e.1 e.2) m).maxwave = m.maxwave ∧
    (hist.foldl (fun m e => m.addEffect e.1 e.2) m).extrap = m.extrap := by
  induction hist generalizing m with
  | nil => simp
  | cons e hist ih =>
    obtain ⟨e, skip⟩ := e
    obtain ⟨h1, h2, h3, h4, h5, h6, h7, h8⟩ := ih (m.addEffect e skip)
    rw [List.foldl_cons]
    simp only
    rw [h1, h2, h3, h4, h5, h6, h7, h8]
    cases hr : e.restFrame <;> cases skip <;> simp [SEDModel.addEffect, hr]

theorem sedExtrapolated_congr (m m' : SEDModel V W R K) (h1 : m.computeSed = m'.computeSed)
    (h2 : m.minwave = m'.minwave) (h3 : m.maxwave = m'.maxwave) (h4 : m.extrap = m'.extrap) (noKw kw : W)
    (times waves : List K) (st : SState K) :
    m.sedExtrapolated noKw times waves st kw = m'.sedExtrapolated noKw times waves st kw := by
  unfold SEDModel.sedExtrapolated SEDModel.extrapolated
  rw [h1, h2, h3, h4]

/-- C33. After any history of add_effect calls on a model without effects, evaluating one sample succeeds
with result `out` exactly when: the (extrapolated) SED is computed in the frame of the source; then every
rest-frame effect of the history is applied once, in the order added, with the rest-frame times and
wavelengths; then the flux is scaled by 1+z; then every observer-frame effect of the history is applied once,
in the order added, with the observer-frame times and wavelengths. All effects are given the parameters
of the model's own node. -/
theorem C33_order (m : SEDModel V W R K) (hm : m.restEffects = [] ∧ m.obsEffects = [])
    (hist : List (Effect V R K × Bool)) (noKw kw : W) (times waves : List K) (st : SState K) (r : R)
    (out : Mat K × R) :
    (hist.foldl (fun m e => m.addEffect e.1 e.2) m).evaluateSingle noKw times waves st r kw = .ok out ↔
    ∃ p zs sed mid, st.get? m.nodeString = some p ∧ Frame m.applyRedshift p zs ∧
      m.sedExtrapolated noKw (times.map (frameTime zs)) (waves.map (frameWave zs)) st kw = .ok sed ∧
      Applied p (times.map (frameTime zs)) (waves.map (frameWave zs))
        ((hist.map (·.1)).filter fun e => e.restFrame) (sed, r) mid ∧
      Applied p times waves ((hist.map (·.1)).filter fun e => !e.restFrame)
        (mid.1.map (fun row => row.map fun x => x * frameFactor zs), mid.2) out := by
  rw [evaluateSingle_iff]
  obtain ⟨h1, h2, h3, h4, h5, h6, h7, h8⟩ := added_effects hist m
  rw [h1, h2, h3, h4, hm.1, hm.2]
  simp only [List.nil_append]
  simp only [sedExtrapolated_congr _ m h5 h6 h7 h8]

/-- C33, the listing: after any history of add_effect calls `list_effects` gives every effect of the history once, those of the rest frame
first and each group in the order added: the order in which `C33_order` applies them. Its rest-frame part and the rest are the lists applied there. -/
theorem C33_listed (m : SEDModel V W R K) (hm : m.restEffects = [] ∧ m.obsEffects = []) (hist : List (Effect V R K × Bool)) :
    (hist.foldl (fun m e => m.addEffect e.1 e.2) m).listEffects =
      ((hist.map (·.1)).filter fun e => e.restFrame) ++ ((hist.map (·.1)).filter fun e => !e.restFrame) ∧
    (hist.foldl (fun m e => m.addEffect e.1 e.2) m).listEffects.Perm (hist.map (·.1)) ∧
    ((hist.foldl (fun m e => m.addEffect e.1 e.2) m).listEffects.filter fun e => e.restFrame) = (hist.map (·.1)).filter (fun e => e.restFrame) ∧
    ((hist.foldl (fun m e => m.addEffect e.1 e.2) m).listEffects.filter fun e => !e.restFrame) = (hist.map (·.1)).filter fun e => !e.restFrame := by
  obtain ⟨h1, h2, -⟩ := added_effects hist m
  have key : (hist.foldl (fun m e => m.addEffect e.1 e.2) m).listEffects =
      ((hist.map (·.1)).filter fun e => e.restFrame) ++ (hist.map (·.1)).filter fun e => !e.restFrame := by
    unfold SEDModel.listEffects
    rw [h1, h2, hm.1, hm.2]
    rfl
  refine ⟨key, ?_, ?_, ?_⟩
  · rw [key]; exact List.filter_append_perm _ _
  · rw [key, List.filter_append, List.filter_filter, List.filter_filter]
    simp
  · rw [key, List.filter_append, List.filter_filter, List.filter_filter]
    simp

theorem applied_det {p : Params K} {times waves : List K} {es : List (Effect V R K)} {x y z : Mat K × R}
    (h1 : Applied p times waves es x y) (h2 : Applied p times waves es x z) : y = z := by
  induction h1 generalizing z with
  | nil => cases h2; rfl
  | cons he _ ih =>
    cases h2 with
    | cons he' h' => rw [he] at he'; cases he'; exact ih h'

/-! ## C32 -/

/-- C32, evaluation: a redshifted pointwise model without effects gives (1+z) times the rest-frame value
at t0 + (t-t0)/(1+z) and w/(1+z), wherever it has been asked; also for z = 0, where the code skips the
transformation and t0 need not exist. (`stretch` with no bounds is the model itself.) -/
theorem C32_evaluate (m : SEDModel V W R K) (hm : m.restEffects = [] ∧ m.obsEffects = []) (noKw kw : W)
    (times waves : List K) (st : SState K) (r : R) (p : Params K) (z t0 : K) (F : K → K → K) (G : K → K → K → K)
    (hz1 : z ≠ -1) (hF : Pointwise m st F)
    (hG : (m.extrap = none ∧ G = fun _ _ _ => 0) ∨ ∃ ex, m.extrap = some ex ∧ PointwiseExt ex G)
    (hle : ∀ l h, m.minwave st = some l → m.maxwave st = some h → l ≤ h) (hne : waves ≠ [])
    (hp : st.get? m.nodeString = some p) (hr : m.applyRedshift = true) (hz : p.get? redshiftKey = some (.num z))
    (ht : z ≠ 0 → p.get? t0Key = some (.num t0)) :
    m.evaluateSingle noKw times waves st r kw =
      .ok (times.map (fun t => waves.map fun w =>
        (1 + z) * stretch (m.minwave st) (m.maxwave st) (F (t0 + (t - t0) / (1 + z))) G (w / (1 + z))), r) := by
  have hz1' : 1 + z ≠ 0 := fun h => hz1 (by linear_combination h)
  rw [evaluateSingle_iff, hm.1, hm.2]
  by_cases h0 : z = 0
  · subst h0
    have h34 := ExtrapolationProps.C34_pointwise m noKw kw (times.map (frameTime none)) (waves.map (frameWave none)) st
      F G hF hG hle (by simpa using hne)
    refine ⟨p, none, _, _, hp, .zero hz, h34, .nil _, ?_⟩
    · simp only [frameFactor, List.map_map, Function.comp_def, frameTime, frameWave, mul_one, add_zero, div_one,
        one_mul, List.map_id', add_sub_cancel]
      exact .nil _
  · have h34 := ExtrapolationProps.C34_pointwise m noKw kw (times.map (frameTime (some (z, t0))))
      (waves.map (frameWave (some (z, t0)))) st F G hF hG hle (by simpa using hne)
    refine ⟨p, some (z, t0), _, _, hp, .shifted hr h0 hz (ht h0), h34, .nil _, ?_⟩
    · simp only [frameFactor, List.map_map, Function.comp_def, frameTime, frameWave, mul_comm (1 + z)]
      exact .nil _

/-- C32, the transformation itself: it fixes t0, is the identity at z = 0, is inverted by
t0 + (t'-t0)(1+z) and w'(1+z), composes multiplicatively in 1+z, and keeps the order of times and of
wavelengths. -/
theorem C32_transform [IsStrictOrderedRing K] (z z' t0 t t' w w' : K) (hz : -1 < z) (hz' : -1 < z') :
    obsToRestTime z t0 t0 = t0 ∧ obsToRestTime 0 t0 t = t ∧ obsToRestWave 0 w = w ∧
    t0 + (obsToRestTime z t0 t - t0) * (1 + z) = t ∧ obsToRestTime z t0 (t0 + (t - t0) * (1 + z)) = t ∧
    obsToRestWave z w * (1 + z) = w ∧ obsToRestWave z (w * (1 + z)) = w ∧
    obsToRestTime z' t0 (obsToRestTime z t0 t) = obsToRestTime ((1 + z) * (1 + z') - 1) t0 t ∧
    obsToRestWave z' (obsToRestWave z w) = obsToRestWave ((1 + z) * (1 + z') - 1) w ∧
    (obsToRestTime z t0 t < obsToRestTime z t0 t' ↔ t < t') ∧ (obsToRestWave z w < obsToRestWave z w' ↔ w < w') := by
  have h1 : 0 < 1 + z := by linarith
  have h2 : 0 < 1 + z' := by linarith
  have h3 := h1.ne'
  have h4 := h2.ne'
  unfold obsToRestTime obsToRestWave
  have h5 : 1 + ((1 + z) * (1 + z') - 1) = (1 + z) * (1 + z') := by ring
  rw [h5]
  refine ⟨by simp, by simp, by simp, by field_simp; ring, by field_simp; ring, by field_simp, by field_simp,
    by field_simp; ring, by field_simp, ?_, ?_⟩
  · rw [add_lt_add_iff_right, div_lt_div_iff_of_pos_right h1, sub_lt_sub_iff_right]
  · exact div_lt_div_iff_of_pos_right h1

/-- C32: a redshifted model without a redshift or a t0 raises ValueError. -/
theorem C32_missing_raises (m : SEDModel V W R K) (noKw kw : W) (times waves : List K) (st : SState K) (r : R)
    (p : Params K) (hp : st.get? m.nodeString = some p) (hr : m.applyRedshift = true)
    (h : p.get? redshiftKey = some .none ∨
      (∃ z, z ≠ 0 ∧ p.get? redshiftKey = some (.num z)) ∧ (p.get? t0Key = some .none ∨ p.get? t0Key = none)) :
    m.evaluateSingle noKw times waves st r kw = .error .valueError := by
  have : redshiftOf m.applyRedshift p = .error .valueError := by
    unfold redshiftOf
    rw [hr]
    rcases h with h | ⟨⟨z, hz, h⟩, h' | h'⟩ <;> simp [h, *]
  unfold SEDModel.evaluateSingle localParams
  rw [hp]
  simp only
  rw [this]

end LCL.PhysicalProps
