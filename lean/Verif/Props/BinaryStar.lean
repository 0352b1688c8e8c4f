import Verif.Model.BinaryStar
import Verif.Spec.BinaryStar
import Verif.Props.BinaryArea

/-!
# C107: black bodies and the flux of an eclipsing binary
-/

namespace LCL.BinaryProps
open LCL LCL.BinaryStar LCL.BinarySpec MeasureTheory Real Set Metric

theorem consts_pos : 0 < planckH ∧ 0 < boltzK ∧ 0 < lightC ∧ 0 < parsecCm ∧ 0 < angstromCm ∧ 0 < fnuNjy := by
  unfold planckH boltzK lightC parsecCm angstromCm fnuNjy
  refine ⟨by norm_num, by norm_num, by norm_num, ?_, by norm_num, by norm_num⟩
  have := pi_pos
  positivity

theorem planck_den {temp lam : ℝ} (ht : 0 < temp) (hl : 0 < lam) : 0 < Real.exp (planckH * (lightC / lam) / (boltzK * temp)) - 1 := by
  obtain ⟨h, k, c, -⟩ := consts_pos
  have : 0 < planckH * (lightC / lam) / (boltzK * temp) := by positivity
  have := Real.add_one_lt_exp this.ne'
  linarith

theorem planck_pos {temp lam : ℝ} (ht : 0 < temp) (hl : 0 < lam) : 0 < planckIntensity temp lam := by
  obtain ⟨h, k, c, -⟩ := consts_pos
  have := planck_den ht hl
  unfold planckIntensity
  dsimp only
  positivity

theorem planck_mono {t1 t2 lam : ℝ} (ht : 0 < t1) (h : t1 < t2) (hl : 0 < lam) : planckIntensity t1 lam < planckIntensity t2 lam := by
  obtain ⟨hh, k, c, -⟩ := consts_pos
  have d2 := planck_den (ht.trans h) hl
  unfold planckIntensity
  dsimp only
  apply div_lt_div_of_pos_left (by positivity) (by positivity)
  apply mul_lt_mul_of_pos_left _ (by positivity)
  have : planckH * (lightC / lam) / (boltzK * t2) < planckH * (lightC / lam) / (boltzK * t1) := by
    apply div_lt_div_of_pos_left (by positivity) (by positivity)
    exact mul_lt_mul_of_pos_left h k
  have := Real.exp_lt_exp.2 this
  linarith

theorem planck_wien {a temp lam : ℝ} (ha : 0 < a) : planckIntensity (a * temp) (lam / a) = a ^ 3 * planckIntensity temp lam := by
  unfold planckIntensity
  dsimp only
  have e1 : lightC / (lam / a) = a * (lightC / lam) := by rw [div_div_eq_mul_div]; ring
  have e2 : planckH * (a * (lightC / lam)) / (boltzK * (a * temp)) = planckH * (lightC / lam) / (boltzK * temp) := by
    rw [show planckH * (a * (lightC / lam)) = a * (planckH * (lightC / lam)) by ring, show boltzK * (a * temp) = a * (boltzK * temp) by ring,
      mul_div_mul_left _ _ ha.ne']
  rw [e1, e2]
  ring

/-- The intensity of a black body: none at temperature zero. -/
noncomputable def intensity (temp lam : ℝ) : ℝ := open Classical in if temp = 0 then 0 else planckIntensity temp lam

/-- The values of `blackBodyLum` for one wavelength. -/
theorem lum_ok {temp radius : ℝ} (ht : 0 ≤ temp) (ws : List ℝ) :
    blackBodyLum temp radius ws = .ok (ws.map fun lam => intensity temp lam * π * radius ^ 2) := by
  unfold blackBodyLum
  rw [if_neg (not_lt.2 ht)]
  rfl

/-- **C107**, the black body: the luminosity density per solid angle of a star is its intensity times the area of its disc, so that it grows with the square
of the radius; it is positive, grows with the temperature at every wavelength, and follows Wien's displacement law. A negative temperature raises
ValueError. -/
theorem C107_black_body {temp radius lam : ℝ} (hl : 0 < lam) :
    (temp < 0 → blackBodyLum temp radius [lam] = .error .valueError) ∧
    (0 < temp → 0 < radius → ∃ l, blackBodyLum temp radius [lam] = .ok [l] ∧ 0 < l ∧
      (∀ c, blackBodyLum temp (c * radius) [lam] = .ok [c ^ 2 * l]) ∧
      (∀ temp', temp < temp' → ∃ l', blackBodyLum temp' radius [lam] = .ok [l'] ∧ l < l') ∧
      (∀ a, 0 < a → blackBodyLum (a * temp) radius [lam / a] = .ok [a ^ 3 * l])) := by
  refine ⟨fun h => by unfold blackBodyLum; rw [if_pos h], fun ht hr => ?_⟩
  have hp := planck_pos ht hl
  have hpi := pi_pos
  have lum : ∀ {T : ℝ} (r w : ℝ), 0 < T → blackBodyLum T r [w] = .ok [planckIntensity T w * π * r ^ 2] := by
    intro T r w hT
    rw [lum_ok hT.le]
    simp [intensity, hT.ne']
  refine ⟨_, lum radius lam ht, by positivity, ?_, ?_, ?_⟩
  · intro c
    rw [lum _ _ ht]
    congr 2
    ring
  · intro t' h
    refine ⟨_, lum radius lam (ht.trans h), ?_⟩
    have := planck_mono ht h hl
    gcongr
  · intro a ha
    rw [lum _ _ (mul_pos ha ht), planck_wien ha]
    congr 2
    ring

/-! ## What is seen of the stars -/

theorem ball_area (c : ℂ) {r : ℝ} (hr : 0 < r) : volume (closedBall c r) = ENNReal.ofReal (π * r ^ 2) := by
  rw [Complex.volume_closedBall, ENNReal.ofReal_mul pi_pos.le, mul_comm, ENNReal.ofReal_pow hr.le]
  congr 1
  rw [← NNReal.coe_real_pi, ENNReal.ofReal_coe_nnreal]

theorem inter_area (c c' : ℂ) {r1 r2 : ℝ} (h1 : 0 < r1) (h2 : 0 < r2) :
    volume (closedBall c r1 ∩ closedBall c' r2) = ENNReal.ofReal (overlapArea ‖c' - c‖ r1 r2) := by
  rw [← C73_area (c' - c) h1 h2]
  have : closedBall (0 : ℂ) r1 ∩ closedBall (c' - c) r2 = (fun w => c + w) ⁻¹' (closedBall c r1 ∩ closedBall c' r2) := by
    ext w
    simp only [mem_inter_iff, mem_closedBall, mem_preimage, Complex.dist_eq]
    rw [sub_zero, add_sub_cancel_left, show w - (c' - c) = c + w - c' by ring]
  rw [this, measure_preimage_add]

theorem overlap_comm {d r1 r2 : ℝ} (hd : 0 ≤ d) (h1 : 0 < r1) (h2 : 0 < r2) : overlapArea d r1 r2 = overlapArea d r2 r1 := by
  have a := inter_area 0 (d : ℂ) h1 h2
  have b := inter_area (d : ℂ) 0 h2 h1
  rw [inter_comm, b] at a
  have n1 : ‖(d : ℂ) - 0‖ = d := by simp [abs_of_nonneg hd]
  have n2 : ‖(0 : ℂ) - d‖ = d := by simp [abs_of_nonneg hd]
  rw [n1, n2] at a
  exact ((ENNReal.ofReal_eq_ofReal_iff (PeriodicProps.overlap_nonneg _ _ _) (PeriodicProps.overlap_nonneg _ _ _)).1 a).symm

theorem overlap_le {d r1 r2 : ℝ} (hd : 0 ≤ d) (h1 : 0 < r1) (h2 : 0 < r2) : overlapArea d r1 r2 ≤ π * r1 ^ 2 := by
  have hpi := pi_pos
  have a := inter_area 0 (d : ℂ) h1 h2
  have n1 : ‖(d : ℂ) - 0‖ = d := by simp [abs_of_nonneg hd]
  rw [n1] at a
  have := measure_mono (μ := volume) (inter_subset_left : closedBall (0 : ℂ) r1 ∩ closedBall (d : ℂ) r2 ⊆ _)
  rw [a, ball_area _ h1] at this
  exact (ENNReal.ofReal_le_ofReal_iff (by positivity)).1 this

open Classical in
theorem seen_area {s o : Star} (h1 : 0 < s.radius) (h2 : 0 < o.radius) :
    seenArea s o = π * s.radius ^ 2 - (if s.pos.z < o.pos.z then overlapArea ‖o.pos.sky - s.pos.sky‖ s.radius o.radius else 0) := by
  have hpi := pi_pos
  unfold seenArea
  by_cases h : s.pos.z < o.pos.z
  · rw [if_pos h]
    have : seen s o = closedBall s.pos.sky s.radius \ closedBall o.pos.sky o.radius := by
      ext w
      simp [seen, h]
    have e := measure_sdiff_add_inter (μ := volume) (closedBall s.pos.sky s.radius) (isClosed_closedBall (x := o.pos.sky) (ε := o.radius)).measurableSet
    rw [← this, inter_area _ _ h1 h2, ball_area _ h1] at e
    have hfin : volume (seen s o) ≠ ⊤ := by
      intro ht
      rw [ht, top_add] at e
      exact ENNReal.ofReal_ne_top e.symm
    have := congrArg ENNReal.toReal e
    rw [ENNReal.toReal_add hfin ENNReal.ofReal_ne_top, ENNReal.toReal_ofReal (PeriodicProps.overlap_nonneg _ _ _), ENNReal.toReal_ofReal (by positivity)] at this
    linarith
  · rw [if_neg h]
    have : seen s o = closedBall s.pos.sky s.radius := by
      ext w
      simp [seen, h]
    rw [this, ball_area _ h1, ENNReal.toReal_ofReal (by positivity), sub_zero]

theorem planck_eq {temp lam : ℝ} (ht : 0 < temp) (hl : 0 < lam) : intensity temp lam = planck temp lam := by
  unfold intensity planckIntensity planck
  rw [if_neg ht.ne']
  dsimp only
  have e : planckH * (lightC / lam) / (boltzK * temp) = 6.62607015e-27 * 2.99792458e10 / (lam * 1.380649e-16 * temp) := by
    unfold planckH lightC boltzK
    rw [← mul_div_assoc, div_div, mul_assoc lam]
  have d := planck_den ht hl
  rw [e] at d ⊢
  generalize Real.exp _ - 1 = D at *
  unfold planckH lightC
  field_simp

theorem planck_spec_pos {temp lam : ℝ} (ht : 0 < temp) (hl : 0 < lam) : 0 < planck temp lam := by
  rw [← planck_eq ht hl]
  unfold intensity
  rw [if_neg ht.ne']
  exact planck_pos ht hl

theorem sky_norm {a i phase : ℝ} (ha : 0 ≤ a) : ‖(BinarySpec.secondary a i phase).sky‖ =
    a * Real.sqrt ((cos i * cos (2 * π * phase)) ^ 2 + sin (2 * π * phase) ^ 2) := by
  rw [Complex.norm_def, Complex.normSq_apply]
  unfold Point.sky BinarySpec.secondary
  dsimp only
  rw [show a * sin (2 * π * phase) * (a * sin (2 * π * phase)) + -(a * cos (2 * π * phase) * cos i) * -(a * cos (2 * π * phase) * cos i) =
    a ^ 2 * ((cos i * cos (2 * π * phase)) ^ 2 + sin (2 * π * phase) ^ 2) by ring, Real.sqrt_mul (sq_nonneg a), Real.sqrt_sq ha]

theorem cos_pos_iff {phase : ℝ} (h0 : 0 ≤ phase) (h1 : phase < 1) : 0 < cos (2 * π * phase) ↔ (phase < 1 / 4 ∨ phase > 3 / 4) := by
  have hpi := pi_pos
  constructor
  · intro h
    by_contra hn
    push Not at hn
    have := cos_nonpos_of_pi_div_two_le_of_le (x := 2 * π * phase) (by nlinarith [hn.1]) (by nlinarith [hn.2])
    linarith
  · rintro (h | h)
    · exact cos_pos_of_mem_Ioo ⟨by nlinarith, by nlinarith⟩
    · rw [← Real.cos_sub_two_pi]
      exact cos_pos_of_mem_Ioo ⟨by nlinarith, by nlinarith⟩

theorem cos_neg_iff {phase : ℝ} (h0 : 0 ≤ phase) (h1 : phase < 1) : cos (2 * π * phase) < 0 ↔ (1 / 4 < phase ∧ phase < 3 / 4) := by
  have hpi := pi_pos
  constructor
  · intro h
    by_contra hn
    have : phase ≤ 1 / 4 ∨ 3 / 4 ≤ phase := by
      by_contra hc
      push Not at hc
      exact hn hc
    rcases this with g | g
    · have := cos_nonneg_of_neg_pi_div_two_le_of_le (x := 2 * π * phase) (by nlinarith) (by nlinarith)
      linarith
    · rw [← Real.cos_sub_two_pi] at h
      have := cos_nonneg_of_neg_pi_div_two_le_of_le (x := 2 * π * phase - 2 * π) (by nlinarith) (by nlinarith)
      linarith
  · rintro ⟨h, h'⟩
    exact cos_neg_of_pi_div_two_lt_of_lt (by nlinarith) (by nlinarith)

/-- The two stars of a binary on the sky: the primary at the origin. -/
noncomputable def primaryStar (r : ℝ) : Star := ⟨⟨0, 0, 0⟩, r⟩
noncomputable def secondaryStar (a inc phase r : ℝ) : Star := ⟨BinarySpec.secondary a (inc * π / 180) phase, r⟩

/-- The brightness of the binary at a phase. -/
theorem lum_spec {b : Binary} {B1 B2 phase : ℝ} (h1 : 0 < b.r1) (h2 : 0 < b.r2) (hdet : b.r1 + b.r2 ≤ b.semiaxis) (hi0 : 0 < b.inclination)
    (hi1 : b.inclination < 180) (hB1 : 0 < B1) (hB2 : 0 < B2) (p0 : 0 ≤ phase) (p1 : phase < 1) :
    binaryLum b (B1 * π * b.r1 ^ 2) (B2 * π * b.r2 ^ 2) phase =
      B1 * seenArea (primaryStar b.r1) (secondaryStar b.semiaxis b.inclination phase b.r2) +
        B2 * seenArea (secondaryStar b.semiaxis b.inclination phase b.r2) (primaryStar b.r1) := by
  have hpi := pi_pos
  have ha : 0 < b.semiaxis := by linarith
  have hs : 0 < sin (b.inclination * π / 180) := sin_pos_of_pos_of_lt_pi (by positivity) (by nlinarith)
  rw [seen_area (s := primaryStar b.r1) h1 h2, seen_area (o := primaryStar b.r1) h2 h1]
  have hz : (secondaryStar b.semiaxis b.inclination phase b.r2).pos.z = b.semiaxis * cos (2 * π * phase) * sin (b.inclination * π / 180) := rfl
  have hz0 : (primaryStar b.r1).pos.z = 0 := rfl
  have hsky : (primaryStar b.r1).pos.sky = 0 := rfl
  have hr1 : (primaryStar b.r1).radius = b.r1 := rfl
  have hr2 : (secondaryStar b.semiaxis b.inclination phase b.r2).radius = b.r2 := rfl
  have hn : ‖(secondaryStar b.semiaxis b.inclination phase b.r2).pos.sky‖ = b.semiaxis * centerDistance phase b.inclination := sky_norm ha.le
  have hd0 : 0 ≤ b.semiaxis * centerDistance phase b.inclination := by rw [← hn]; exact norm_nonneg _
  rw [hz, hz0, hsky, hr1, hr2, sub_zero, zero_sub, norm_neg, hn, overlap_comm hd0 h2 h1]
  have c1 : (0 < b.semiaxis * cos (2 * π * phase) * sin (b.inclination * π / 180)) ↔ (phase < 1 / 4 ∨ phase > 3 / 4) := by
    rw [mul_pos_iff_of_pos_right hs, mul_pos_iff_of_pos_left ha, cos_pos_iff p0 p1]
  have c2 : (b.semiaxis * cos (2 * π * phase) * sin (b.inclination * π / 180) < 0) ↔ (1 / 4 < phase ∧ phase < 3 / 4) := by
    rw [← cos_neg_iff p0 p1, mul_neg_iff, mul_neg_iff]
    constructor
    · rintro (⟨-, h⟩ | ⟨h | h, -⟩)
      · linarith
      · exact h.2
      · linarith
    · intro h
      exact Or.inr ⟨Or.inl ⟨ha, h⟩, hs⟩
  have hov := overlap_le hd0 h1 h2
  have hov2 := overlap_le hd0 h2 h1
  rw [overlap_comm hd0 h2 h1] at hov2
  have key : ∀ {B r o : ℝ}, 0 < B → 0 < r → o ≤ π * r ^ 2 → clip0 (B * π * r ^ 2 * (1 - o / (π * r ^ 2))) = B * (π * r ^ 2 - o) := by
    intro B r o hB hr ho
    have : B * π * r ^ 2 * (1 - o / (π * r ^ 2)) = B * (π * r ^ 2 - o) := by field_simp
    rw [this, PeriodicProps.clip0_of_nonneg]
    exact mul_nonneg hB.le (sub_nonneg.2 ho)
  have key0 : ∀ {B r : ℝ}, 0 < B → 0 < r → clip0 (B * π * r ^ 2 * (1 - 0)) = B * (π * r ^ 2 - 0) := by
    intro B r hB hr
    rw [PeriodicProps.clip0_of_nonneg (by rw [sub_zero]; positivity)]
    ring
  unfold binaryLum
  dsimp only
  by_cases hp : phase < 1 / 4 ∨ phase > 3 / 4
  · have hn2 : ¬ (1 / 4 < phase ∧ phase < 3 / 4) := by rintro ⟨x, y⟩; rcases hp with h | h <;> linarith
    rw [if_pos hp, if_neg (not_not.2 hp), if_pos (c1.2 hp), if_neg (fun h => hn2 (c2.1 h)), key hB1 h1 hov, key0 hB2 h2]
  · rw [if_neg hp, if_pos hp, if_neg (fun h => hp (c1.1 h)), key0 hB1 h1]
    by_cases hq : 1 / 4 < phase ∧ phase < 3 / 4
    · rw [if_pos (c2.2 hq), key hB2 h2 hov2]
    · rw [if_neg (fun h => hq (c2.1 h))]
      have hc : cos (2 * π * phase) = 0 := by
        have a1 := mt (cos_pos_iff p0 p1).1 hp
        have a2 := mt (cos_neg_iff p0 p1).1 hq
        linarith [not_lt.1 a1, not_lt.1 a2]
      have hcd : centerDistance phase b.inclination = 1 := by
        unfold centerDistance
        have := sin_sq_add_cos_sq (2 * π * phase)
        rw [hc] at this ⊢
        rw [mul_zero, zero_pow two_ne_zero, zero_add, show sin (2 * π * phase) ^ 2 = 1 by linarith, Real.sqrt_one]
      have : overlapArea (b.semiaxis * centerDistance phase b.inclination) b.r1 b.r2 = 0 := by
        unfold overlapArea
        rw [hcd, mul_one, if_pos hdet]
      rw [this, key hB2 h2 (by positivity)]

/-- **C107**, the flux. A detached binary is seen at every time and wavelength with the flux density of two spheres on a circular orbit: black bodies with
uniform discs, of which the farther one is hidden where the nearer one's disc covers it. The orbit has the given inclination and period, and at `t0` the
secondary is in front of the primary. -/
theorem C107_flux {W : Type} (node : Name) (kw : W) {st : SState ℝ} {p : Params ℝ} (hl : st.get? node = some p)
    {period t0 dist t1 t2 a inc r1 r2 : ℝ} (hper : p.get? "period".toList = some (.num period)) (ht0 : p.get? "t0".toList = some (.num t0))
    (hdist : p.get? "distance".toList = some (.num dist)) (hT1 : p.get? "primary_temperature".toList = some (.num t1))
    (hT2 : p.get? "secondary_temperature".toList = some (.num t2)) (hR1 : p.get? "primary_radius".toList = some (.num r1))
    (hR2 : p.get? "secondary_radius".toList = some (.num r2)) (hA : p.get? "major_semiaxis".toList = some (.num a))
    (hI : p.get? "inclination".toList = some (.num inc))
    (per0 : period ≠ 0) (T1 : 0 < t1) (T2 : 0 < t2) (hr1 : 0 < r1) (hr2 : 0 < r2) (hdet : r1 + r2 ≤ a) (hi0 : 0 < inc) (hi1 : inc < 180)
    (times waves : List ℝ) (hw : ∀ w ∈ waves, 0 < w) :
    binarySed node kw st times waves = .ok (times.map fun t => waves.map fun w =>
      flux (primaryStar r1) (secondaryStar a inc ((t - t0) / period) r2) t1 t2 dist (w * 1e-8)) := by
  have hpar : ∀ {k : Name} {v : ℝ}, p.get? k = some (.num v) → numParam p k = .ok v := by
    intro k v h
    unfold numParam
    rw [h]
  unfold binarySed periodicSed localParams
  rw [hl]
  dsimp only
  rw [hpar hper, show t0Key = "t0".toList from rfl, hpar ht0]
  dsimp only
  unfold evaluatePhases binaryLums getNum localParams
  rw [hl]
  dsimp only
  rw [hdist]
  simp only [bind, Except.bind, pure, Except.pure]
  simp only [hpar hT1, hpar hT2, hpar hR1, hpar hR2, hpar hA, hpar hI, lum_ok T1.le, lum_ok T2.le]
  congr 1
  simp only [List.map_map, List.zip_map', List.map_inj_left, Function.comp]
  intro t ht w hwm
  rw [PeriodicProps.phase_fract per0]
  have ha : angstromCm = 1e-8 := rfl
  have hlam : 0 < w * angstromCm := mul_pos (hw w hwm) consts_pos.2.2.2.2.1
  unfold binaryLumAt
  dsimp only
  rw [planck_eq T1 hlam, planck_eq T2 hlam, lum_spec (b := ⟨a, inc, r1, r2⟩) hr1 hr2 hdet hi0 hi1 (planck_spec_pos T1 hlam) (planck_spec_pos T2 hlam)
    (Int.fract_nonneg _) (Int.fract_lt_one _)]
  have horb : secondaryStar a inc (Int.fract ((t - t0) / period)) r2 = secondaryStar a inc ((t - t0) / period) r2 := by
    unfold secondaryStar BinarySpec.secondary
    have e : 2 * π * Int.fract ((t - t0) / period) = 2 * π * ((t - t0) / period) - (⌊(t - t0) / period⌋ : ℤ) * (2 * π) := by
      rw [Int.fract]; ring
    rw [e, Real.sin_sub_int_mul_two_pi, Real.cos_sub_int_mul_two_pi]
  dsimp only
  rw [horb]
  rfl

/-- The radius of the sun and the astronomical unit, in cm. -/
noncomputable def sunCm : ℝ := 6.957e10
noncomputable def auCm : ℝ := 1.495978707e13

/-- **C107 is false in the documented units.** The documentation gives the semiaxis in astronomical units and the radii in solar radii; the code takes all
three in cm. For every binary given in the documented units, the flux the code computes at quadrature (where nothing is hidden) is too small by a factor of
at least 4.8e21, the square of the solar radius in cm. -/
theorem C107_units_counterexample {W : Type} (node : Name) (kw : W) {st : SState ℝ} {p : Params ℝ} (hl : st.get? node = some p)
    {period t0 dist t1 t2 a inc r1 r2 : ℝ} (hper : p.get? "period".toList = some (.num period)) (ht0 : p.get? "t0".toList = some (.num t0))
    (hdist : p.get? "distance".toList = some (.num dist)) (hT1 : p.get? "primary_temperature".toList = some (.num t1))
    (hT2 : p.get? "secondary_temperature".toList = some (.num t2)) (hR1 : p.get? "primary_radius".toList = some (.num r1))
    (hR2 : p.get? "secondary_radius".toList = some (.num r2)) (hA : p.get? "major_semiaxis".toList = some (.num a))
    (hI : p.get? "inclination".toList = some (.num inc))
    (per0 : period ≠ 0) (dist0 : dist ≠ 0) (T1 : 0 < t1) (T2 : 0 < t2) (hr1 : 0 < r1) (hr2 : 0 < r2) {w : ℝ} (hw : 0 < w) :
    ∃ f, binarySed node kw st [t0 + period / 4] [w] = .ok [[f]] ∧
      f * 6.957e10 ^ 2 ≤ flux (primaryStar (r1 * sunCm)) (secondaryStar (a * auCm) inc (1 / 4) (r2 * sunCm)) t1 t2 dist (w * 1e-8) ∧
      f < flux (primaryStar (r1 * sunCm)) (secondaryStar (a * auCm) inc (1 / 4) (r2 * sunCm)) t1 t2 dist (w * 1e-8) := by
  have hpi := pi_pos
  have hpar : ∀ {k : Name} {v : ℝ}, p.get? k = some (.num v) → numParam p k = .ok v := by
    intro k v h
    unfold numParam
    rw [h]
  have hlam : 0 < w * angstromCm := mul_pos hw consts_pos.2.2.2.2.1
  have B1 := planck_spec_pos T1 hlam
  have B2 := planck_spec_pos T2 hlam
  have hsun : 0 < sunCm := by unfold sunCm; norm_num
  have hsun2 : sunCm ^ 2 = 6.957e10 ^ 2 := rfl
  have hD : 0 < (dist * (648000 / π * 1.495978707e13)) ^ 2 := by
    have : 0 < 648000 / π * 1.495978707e13 := by positivity
    have := mul_ne_zero dist0 this.ne'
    positivity
  have hcos : cos (2 * π * (1 / 4)) = 0 := by rw [show 2 * π * (1 / 4) = π / 2 by ring, cos_pi_div_two]
  have hzz : (secondaryStar (a * auCm) inc (1 / 4) (r2 * sunCm)).pos.z = 0 := by
    show a * auCm * cos (2 * π * (1 / 4)) * sin _ = 0
    rw [hcos]; ring
  have hz0 : (primaryStar (r1 * sunCm)).pos.z = 0 := rfl
  have e1 : seenArea (primaryStar (r1 * sunCm)) (secondaryStar (a * auCm) inc (1 / 4) (r2 * sunCm)) = π * (r1 * sunCm) ^ 2 := by
    rw [seen_area (mul_pos hr1 hsun) (mul_pos hr2 hsun), hz0, hzz, if_neg (lt_irrefl _), sub_zero]
    rfl
  have e2 : seenArea (secondaryStar (a * auCm) inc (1 / 4) (r2 * sunCm)) (primaryStar (r1 * sunCm)) = π * (r2 * sunCm) ^ 2 := by
    rw [seen_area (mul_pos hr2 hsun) (mul_pos hr1 hsun), hz0, hzz, if_neg (lt_irrefl _), sub_zero]
    rfl
  refine ⟨starFlux fnuNjy (dist * parsecCm) (binaryLumAt ⟨a, inc, r1, r2⟩ (intensity t1 (w * angstromCm) * π * r1 ^ 2) (intensity t2 (w * angstromCm) * π * r2 ^ 2)
    (phaseOf t0 period (t0 + period / 4))), ?_, ?_⟩
  · unfold binarySed periodicSed localParams
    rw [hl]
    dsimp only
    rw [hpar hper, show t0Key = "t0".toList from rfl, hpar ht0]
    dsimp only
    unfold evaluatePhases binaryLums getNum localParams
    rw [hl]
    dsimp only
    rw [hdist]
    simp only [bind, Except.bind, pure, Except.pure]
    simp only [hpar hT1, hpar hT2, hpar hR1, hpar hR2, hpar hA, hpar hI, lum_ok T1.le, lum_ok T2.le]
    rfl
  · rw [PeriodicProps.phase_fract per0, planck_eq T1 hlam, planck_eq T2 hlam]
    unfold binaryLumAt
    dsimp only
    generalize Int.fract ((t0 + period / 4 - t0) / period) = ph
    have hle := (PeriodicProps.C73_brightness ⟨a, inc, r1, r2⟩ (lum1 := planck t1 (w * angstromCm) * π * r1 ^ 2)
      (lum2 := planck t2 (w * angstromCm) * π * r2 ^ 2) hr1 hr2 (by positivity) (by positivity) ph).2.1
    have hfl : flux (primaryStar (r1 * sunCm)) (secondaryStar (a * auCm) inc (1 / 4) (r2 * sunCm)) t1 t2 dist (w * 1e-8) =
        (planck t1 (w * angstromCm) * π * r1 ^ 2 + planck t2 (w * angstromCm) * π * r2 ^ 2) / (dist * (648000 / π * 1.495978707e13)) ^ 2 * 1e32 *
          6.957e10 ^ 2 := by
      unfold flux
      rw [e1, e2, ← hsun2, show w * 1e-8 = w * angstromCm from rfl]
      ring
    rw [hfl]
    unfold starFlux
    rw [show dist * parsecCm = dist * (648000 / π * 1.495978707e13) from rfl, show fnuNjy = 1e32 from rfl]
    have hpos : 0 < planck t1 (w * angstromCm) * π * r1 ^ 2 + planck t2 (w * angstromCm) * π * r2 ^ 2 := by positivity
    generalize planck t1 (w * angstromCm) * π * r1 ^ 2 + planck t2 (w * angstromCm) * π * r2 ^ 2 = L at *
    generalize (dist * (648000 / π * 1.495978707e13)) ^ 2 = D at *
    have hq : binaryLum ⟨a, inc, r1, r2⟩ (planck t1 (w * angstromCm) * π * r1 ^ 2) (planck t2 (w * angstromCm) * π * r2 ^ 2) ph / D ≤ L / D := by
      gcongr
    have hq2 : 0 < L / D := by positivity
    constructor
    · gcongr
    · refine lt_of_le_of_lt (mul_le_mul_of_nonneg_right hq (by norm_num)) ?_
      have : L / D * 1e32 * 1 < L / D * 1e32 * 6.957e10 ^ 2 := mul_lt_mul_of_pos_left (by norm_num) (by positivity)
      rwa [mul_one] at this

/-- **C107**, errors: a binary whose distance is missing or `None` is refused by the constructor, and a distance that is `None` in
the sample makes the evaluation raise TypeError. -/
theorem C107_errors (setters : Dict Name (Option (PVal ℝ))) :
    (starInit setters = .error .valueError ↔ setters.get? "distance".toList = none ∨ setters.get? "distance".toList = some (some .none)) ∧
    (∀ {W : Type} (node : Name) (kw : W) (st : SState ℝ) (p : Params ℝ) (times waves : List ℝ) (period t0 : ℝ), st.get? node = some p →
      p.get? "period".toList = some (.num period) → p.get? "t0".toList = some (.num t0) → p.get? "distance".toList = some .none →
      binarySed node kw st times waves = .error .typeError) := by
  constructor
  · unfold starInit
    generalize setters.get? "distance".toList = v
    rcases v with _ | _ | _ | _ | _ <;> simp
  · intro W node kw st p times waves period t0 hl hper ht0 hd
    unfold binarySed periodicSed localParams numParam
    rw [hl]
    dsimp only
    rw [hper, show t0Key = "t0".toList from rfl, ht0]
    dsimp only
    unfold evaluatePhases getNum
    rw [hl]
    dsimp only
    rw [hd]
    rfl

/-- A binary like two suns, given in cm, seen edge on from ten parsecs: its parameters meet the hypotheses of `C107_flux`. -/
noncomputable def demoParams : Params ℝ :=
  [("period".toList, .num 10), ("t0".toList, .num 0), ("distance".toList, .num 10), ("primary_temperature".toList, .num 6000),
   ("secondary_temperature".toList, .num 4000), ("primary_radius".toList, .num 7e10), ("secondary_radius".toList, .num 5e10),
   ("major_semiaxis".toList, .num 1e12), ("inclination".toList, .num 90)]

example : binarySed "star".toList () [("star".toList, demoParams)] [0, 2.5] [5000] = .ok
    [[flux (primaryStar 7e10) (secondaryStar 1e12 90 0 5e10) 6000 4000 10 5e-5], [flux (primaryStar 7e10) (secondaryStar 1e12 90 (1 / 4) 5e10) 6000 4000 10 5e-5]] := by
  rw [C107_flux "star".toList () (st := [("star".toList, demoParams)]) (p := demoParams) rfl (period := 10) (t0 := 0) (dist := 10) (t1 := 6000) (t2 := 4000) (a := 1e12)
    (inc := 90) (r1 := 7e10) (r2 := 5e10) rfl rfl rfl rfl rfl rfl rfl rfl rfl (by norm_num) (by norm_num) (by norm_num) (by norm_num) (by norm_num) (by norm_num)
    (by norm_num) (by norm_num) [0, 2.5] [5000] (by simp)]
  simp only [List.map_cons, List.map_nil]
  norm_num

/-- At mid eclipse the smaller secondary lies before the disc of the primary and hides an area of its own size. -/
example : seenArea (primaryStar 7e10) (secondaryStar 1e12 90 0 5e10) = π * (7e10) ^ 2 - π * (5e10) ^ 2 := by
  rw [seen_area (by norm_num [primaryStar]) (by norm_num [secondaryStar])]
  have hz : (primaryStar 7e10).pos.z < (secondaryStar 1e12 90 0 5e10).pos.z := by
    show (0 : ℝ) < 1e12 * cos (2 * π * 0) * sin (90 * π / 180)
    rw [show 90 * π / 180 = π / 2 by ring, sin_pi_div_two, mul_zero, cos_zero]
    norm_num
  have hn : ‖(secondaryStar 1e12 90 0 5e10).pos.sky - (primaryStar 7e10).pos.sky‖ = 0 := by
    rw [show (primaryStar 7e10).pos.sky = 0 from rfl, sub_zero]
    unfold secondaryStar
    rw [sky_norm (by norm_num), show 90 * π / 180 = π / 2 by ring, cos_pi_div_two]
    simp
  rw [if_pos hz, hn]
  unfold overlapArea primaryStar secondaryStar
  dsimp only
  norm_num

/-- **C107**, a period of zero: the phase is undefined, and the code answers with the flux of the two stars side by side at every time, as if nothing were ever hidden. -/
theorem C107_zero_period {W : Type} (node : Name) (kw : W) {st : SState ℝ} {p : Params ℝ} (hl : st.get? node = some p)
    {t0 dist t1 t2 a inc r1 r2 : ℝ} (hper : p.get? "period".toList = some (.num 0)) (ht0 : p.get? "t0".toList = some (.num t0))
    (hdist : p.get? "distance".toList = some (.num dist)) (hT1 : p.get? "primary_temperature".toList = some (.num t1))
    (hT2 : p.get? "secondary_temperature".toList = some (.num t2)) (hR1 : p.get? "primary_radius".toList = some (.num r1))
    (hR2 : p.get? "secondary_radius".toList = some (.num r2)) (hA : p.get? "major_semiaxis".toList = some (.num a))
    (hI : p.get? "inclination".toList = some (.num inc)) (T1 : 0 < t1) (T2 : 0 < t2) (times waves : List ℝ) (hw : ∀ w ∈ waves, 0 < w) :
    binarySed node kw st times waves = .ok (times.map fun _ => waves.map fun w =>
      starFlux 1e32 (dist * parsecCm) (planckIntensity t1 (w * 1e-8) * π * r1 ^ 2 + planckIntensity t2 (w * 1e-8) * π * r2 ^ 2)) := by
  have hpar : ∀ {k : Name} {v : ℝ}, p.get? k = some (.num v) → numParam p k = .ok v := by
    intro k v h
    unfold numParam
    rw [h]
  unfold binarySed periodicSed localParams
  rw [hl]
  dsimp only
  rw [hpar hper, show t0Key = "t0".toList from rfl, hpar ht0]
  dsimp only
  unfold evaluatePhases binaryLums getNum localParams
  rw [hl]
  dsimp only
  rw [hdist]
  simp only [bind, Except.bind, pure, Except.pure]
  simp only [hpar hT1, hpar hT2, hpar hR1, hpar hR2, hpar hA, hpar hI, lum_ok T1.le, lum_ok T2.le]
  congr 1
  simp only [List.map_map, List.zip_map', List.map_inj_left, Function.comp]
  intro t ht w hwm
  have hph : phaseOf t0 0 t = none := by
    unfold phaseOf
    simp
  have hlam : 0 < w * angstromCm := mul_pos (hw w hwm) consts_pos.2.2.2.2.1
  have p1 := planck_pos T1 hlam
  have p2 := planck_pos T2 hlam
  have hpi := pi_pos
  rw [hph]
  unfold binaryLumAt
  simp only [intensity, T1.ne', T2.ne', if_false, sub_zero, mul_one, zero_div]
  have c0 : ∀ x : ℝ, 0 ≤ x → clip0 x = x := by
    intro x hx
    unfold clip0
    simp [hx]
  rw [c0 _ (by positivity), c0 _ (by positivity)]
  rfl

end LCL.BinaryProps
