import Verif.Props.Agn

/-!
# The AGN model's disk is a thin accretion disk (C79, C80)

Specification: the effective temperature of a standard thin disk at radius `r`, and the flux of a disk of black body rings.
-/

namespace LCL.AgnProps
open LCL LCL.Agn

/-- The effective temperature of the standard thin accretion disk at radius `r` (Shakura & Sunyaev 1973): the surface radiates the energy set free there. -/
noncomputable def diskTemp (k : Consts) (mass mdot rin r : ℝ) : ℝ :=
  (3 * k.G * mass * mdot / (8 * Real.pi * k.sigma * r ^ 3) * (1 - Real.sqrt (rin / r))) ^ (1 / 4 : ℝ)

/-- Planck's law: the intensity per frequency of a black body. -/
noncomputable def planck (k : Consts) (nu temp : ℝ) : ℝ := 2 * k.h * nu ^ 3 / k.c ^ 2 / (Real.exp (k.h * nu / (k.kB * temp)) - 1)

theorem sixth (s : ℝ) (hs : 0 ≤ s) : s ^ 6 * (1 - s) ≤ 46656 / 823543 ∧ (s ^ 6 * (1 - s) = 46656 / 823543 → s = 6 / 7) := by
  have e : (46656 / 823543 : ℝ) - s ^ 6 * (1 - s) = (s - 6 / 7) ^ 2 * (s ^ 5 + 5 / 7 * s ^ 4 + 24 / 49 * s ^ 3 + 108 / 343 * s ^ 2 + 432 / 2401 * s + 1296 / 16807) := by ring
  have hq : 0 < s ^ 5 + 5 / 7 * s ^ 4 + 24 / 49 * s ^ 3 + 108 / 343 * s ^ 2 + 432 / 2401 * s + 1296 / 16807 := by positivity
  constructor
  · have : 0 ≤ (s - 6 / 7) ^ 2 * (s ^ 5 + 5 / 7 * s ^ 4 + 24 / 49 * s ^ 3 + 108 / 343 * s ^ 2 + 432 / 2401 * s + 1296 / 16807) := by positivity
    linarith
  · intro h
    rw [h, sub_self] at e
    have h2 := (mul_eq_zero.1 e.symm).resolve_right hq.ne'
    have h3 := pow_eq_zero_iff (two_ne_zero) |>.1 h2
    linarith

theorem r0_pos {rin : ℝ} (h : 0 < rin) : 0 < r0 rin := by unfold r0; positivity

/-- C79. The disk's reference radius and temperature are those of the hottest ring of the standard thin disk: no radius from the inner edge on is hotter, and no other is as hot. -/
theorem C79_hottest_ring {k : Consts} (hk : k.Pos) {mass mdot rin : ℝ} (hM : 0 < mass) (hm : 0 < mdot) (hr : 0 < rin) :
    diskTemp k mass mdot rin (r0 rin) = tempAtR0 k mass mdot rin ∧
    ∀ r, rin ≤ r → diskTemp k mass mdot rin r ≤ tempAtR0 k mass mdot rin ∧ (diskTemp k mass mdot rin r = tempAtR0 k mass mdot rin → r = r0 rin) := by
  have hG := hk.G
  have hs := hk.sigma
  have hpi := Real.pi_pos
  set A : ℝ := k.G * mass * mdot / (Real.pi * k.sigma * rin ^ 3) with hA
  have hA0 : 0 < A := by positivity
  have hT : tempAtR0 k mass mdot rin = (17496 / 823543 * A) ^ (1 / 4 : ℝ) := by
    have e1 : (2 : ℝ) ^ (3 / 4 : ℝ) = ((2 : ℝ) ^ 3) ^ (1 / 4 : ℝ) := by
      rw [← Real.rpow_natCast, ← Real.rpow_mul (by norm_num)]; norm_num
    have e2 : (3 / 7 : ℝ) ^ (7 / 4 : ℝ) = ((3 / 7 : ℝ) ^ 7) ^ (1 / 4 : ℝ) := by
      rw [← Real.rpow_natCast, ← Real.rpow_mul (by norm_num)]; norm_num
    unfold tempAtR0
    rw [e1, e2, ← hA, ← Real.mul_rpow (by norm_num) (by norm_num), ← Real.mul_rpow (by norm_num) hA0.le]
    norm_num
  have hD : ∀ r, rin ≤ r → ∃ q, 0 < q ∧ q ≤ 1 ∧ r = rin / q ^ 2 ∧ diskTemp k mass mdot rin r = (3 / 8 * A * (q ^ 6 * (1 - q))) ^ (1 / 4 : ℝ) := by
    intro r hrr
    have hr0 : 0 < r := lt_of_lt_of_le hr hrr
    have hsq : Real.sqrt (rin / r) ^ 2 = rin / r := Real.sq_sqrt (by positivity)
    have hq0 : 0 < Real.sqrt (rin / r) := Real.sqrt_pos.2 (by positivity)
    refine ⟨Real.sqrt (rin / r), hq0, ?_, ?_, ?_⟩
    · rw [← Real.sqrt_one]
      exact Real.sqrt_le_sqrt (by rw [div_le_one hr0]; exact hrr)
    · rw [hsq]; field_simp
    · unfold diskTemp
      congr 1
      have : Real.sqrt (rin / r) ^ 6 = (rin / r) ^ 3 := by
        calc Real.sqrt (rin / r) ^ 6 = (Real.sqrt (rin / r) ^ 2) ^ 3 := by ring
          _ = _ := by rw [hsq]
      rw [this, hA]
      field_simp
  have hle : ∀ q : ℝ, 0 < q → q ≤ 1 → (3 / 8 * A * (q ^ 6 * (1 - q))) ^ (1 / 4 : ℝ) ≤ (17496 / 823543 * A) ^ (1 / 4 : ℝ) ∧
      ((3 / 8 * A * (q ^ 6 * (1 - q))) ^ (1 / 4 : ℝ) = (17496 / 823543 * A) ^ (1 / 4 : ℝ) → q = 6 / 7) := by
    intro q h0 h1
    obtain ⟨s1, s2⟩ := sixth q h0.le
    have hn : 0 ≤ 3 / 8 * A * (q ^ 6 * (1 - q)) := by
      have : 0 ≤ 1 - q := by linarith
      positivity
    constructor
    · apply Real.rpow_le_rpow hn _ (by norm_num)
      nlinarith
    · intro h
      have := (Real.rpow_left_inj hn (by positivity) (by norm_num)).1 h
      apply s2
      have h3 : A * (q ^ 6 * (1 - q) - 46656 / 823543) = 0 := by linarith
      have := (mul_eq_zero.1 h3).resolve_left hA0.ne'
      linarith
  have hr0e : r0 rin = rin / (6 / 7) ^ 2 := by unfold r0; ring
  refine ⟨?_, ?_⟩
  · obtain ⟨q, q0, q1, qe, qd⟩ := hD (r0 rin) (by unfold r0; nlinarith)
    have : q = 6 / 7 := by
      rw [hr0e] at qe
      have h1 : q ^ 2 = (6 / 7) ^ 2 := by
        field_simp at qe
        linarith
      exact (pow_left_inj₀ q0.le (by norm_num) two_ne_zero).1 h1
    subst this
    rw [qd, hT]
    congr 1
    ring
  · intro r hrr
    obtain ⟨q, q0, q1, qe, qd⟩ := hD r hrr
    rw [qd, hT]
    refine ⟨(hle q q0 q1).1, fun h => ?_⟩
    rw [qe, (hle q q0 q1).2 h, hr0e]

/-- The change of variables from radius to `h ν / k T`. -/
theorem rings {kappa R a : ℝ} (hκ : 0 < kappa) (hR : 0 < R) (ha : 0 < a) (C : ℝ) :
    ∫ r in Set.Ioi a, C / (Real.exp (kappa * (r / R) ^ (3 / 4 : ℝ)) - 1) * (2 * Real.pi * r) =
      8 * Real.pi / 3 * C * R ^ 2 * kappa ^ (-(8 / 3) : ℝ) * quad (kappa * (a / R) ^ (3 / 4 : ℝ)) := by
  have haR : 0 < a / R := by positivity
  -- radius in units of R
  have h1 := MeasureTheory.integral_comp_mul_left_Ioi (fun r => C / (Real.exp (kappa * (r / R) ^ (3 / 4 : ℝ)) - 1) * (2 * Real.pi * r)) (a / R) hR
  rw [show R * (a / R) = a by field_simp] at h1
  have h1' : ∫ r in Set.Ioi a, C / (Real.exp (kappa * (r / R) ^ (3 / 4 : ℝ)) - 1) * (2 * Real.pi * r) =
      R * ∫ y in Set.Ioi (a / R), C / (Real.exp (kappa * y ^ (3 / 4 : ℝ)) - 1) * (2 * Real.pi * (R * y)) := by
    have e : (fun y => C / (Real.exp (kappa * (R * y / R) ^ (3 / 4 : ℝ)) - 1) * (2 * Real.pi * (R * y))) =
        fun y => C / (Real.exp (kappa * y ^ (3 / 4 : ℝ)) - 1) * (2 * Real.pi * (R * y)) := by
      funext y
      rw [show R * y / R = y by field_simp]
    simp only [smul_eq_mul] at h1
    rw [e] at h1
    rw [h1, ← mul_assoc, mul_inv_cancel₀ hR.ne', one_mul]
  -- its 3/4-th power
  have h2 := MeasureTheory.integral_comp_rpow_Ioi_of_pos' (g := fun y : ℝ => C * (2 * Real.pi * R) * (4 / 3) * (y ^ (5 / 3 : ℝ) / (Real.exp (kappa * y) - 1)))
    (p := 3 / 4) (by norm_num) (c := (a / R) ^ (3 / 4 : ℝ)) (by positivity)
  rw [← Real.rpow_mul haR.le, show (3 / 4 : ℝ) * (3 / 4)⁻¹ = 1 by norm_num, Real.rpow_one] at h2
  have h2' : ∫ y in Set.Ioi (a / R), C / (Real.exp (kappa * y ^ (3 / 4 : ℝ)) - 1) * (2 * Real.pi * (R * y)) =
      ∫ y in Set.Ioi ((a / R) ^ (3 / 4 : ℝ)), C * (2 * Real.pi * R) * (4 / 3) * (y ^ (5 / 3 : ℝ) / (Real.exp (kappa * y) - 1)) := by
    rw [← h2]
    apply MeasureTheory.setIntegral_congr_fun measurableSet_Ioi
    intro y hy
    have hy0 : 0 < y := haR.trans hy
    simp only [smul_eq_mul]
    have e : y ^ (3 / 4 - 1 : ℝ) * (y ^ (3 / 4 : ℝ)) ^ (5 / 3 : ℝ) = y := by
      rw [← Real.rpow_mul hy0.le, ← Real.rpow_add hy0]
      norm_num
    have : 3 / 4 * y ^ (3 / 4 - 1 : ℝ) * (C * (2 * Real.pi * R) * (4 / 3) * ((y ^ (3 / 4 : ℝ)) ^ (5 / 3 : ℝ) / (Real.exp (kappa * y ^ (3 / 4 : ℝ)) - 1))) =
        (y ^ (3 / 4 - 1 : ℝ) * (y ^ (3 / 4 : ℝ)) ^ (5 / 3 : ℝ)) * (C * (2 * Real.pi * R) / (Real.exp (kappa * y ^ (3 / 4 : ℝ)) - 1)) := by ring
    rw [this, e]
    ring
  -- in units of kappa
  have h3 := MeasureTheory.integral_comp_mul_left_Ioi (fun x => x ^ (5 / 3 : ℝ) / (Real.exp x - 1)) ((a / R) ^ (3 / 4 : ℝ)) hκ
  have h3' : ∫ y in Set.Ioi ((a / R) ^ (3 / 4 : ℝ)), C * (2 * Real.pi * R) * (4 / 3) * (y ^ (5 / 3 : ℝ) / (Real.exp (kappa * y) - 1)) =
      C * (2 * Real.pi * R) * (4 / 3) * (kappa ^ (-(8 / 3) : ℝ) * quad (kappa * (a / R) ^ (3 / 4 : ℝ))) := by
    rw [MeasureTheory.integral_const_mul]
    congr 1
    have e : ∫ y in Set.Ioi ((a / R) ^ (3 / 4 : ℝ)), (kappa * y) ^ (5 / 3 : ℝ) / (Real.exp (kappa * y) - 1) =
        kappa ^ (5 / 3 : ℝ) * ∫ y in Set.Ioi ((a / R) ^ (3 / 4 : ℝ)), y ^ (5 / 3 : ℝ) / (Real.exp (kappa * y) - 1) := by
      rw [← MeasureTheory.integral_const_mul]
      apply MeasureTheory.setIntegral_congr_fun measurableSet_Ioi
      intro y hy
      have hy0 : 0 < y := (Real.rpow_pos_of_pos haR _).trans hy
      simp only
      rw [Real.mul_rpow hκ.le hy0.le]
      ring
    rw [e] at h3
    have hk0 := Real.rpow_pos_of_pos hκ (5 / 3)
    have : kappa ^ (-(8 / 3) : ℝ) * kappa ^ (5 / 3 : ℝ) = kappa⁻¹ := by
      rw [← Real.rpow_add hκ, ← Real.rpow_neg_one]; norm_num
    have h4 : ∫ y in Set.Ioi ((a / R) ^ (3 / 4 : ℝ)), y ^ (5 / 3 : ℝ) / (Real.exp (kappa * y) - 1) =
        (kappa ^ (5 / 3 : ℝ))⁻¹ * (kappa⁻¹ * quad (kappa * (a / R) ^ (3 / 4 : ℝ))) := by
      rw [eq_inv_mul_iff_mul_eq₀ hk0.ne', h3]
      rfl
    rw [h4, ← this]
    field_simp
  rw [h1', h2', h3']
  ring

/-- C80. The average flux of the disk is the light of its rings: from the inner radius `rg` gravitational radii outwards, each ring radiates as a black body whose temperature falls as the -3/4
power of the radius from the hottest ring's; it is seen under the inclination `i` from the distance `d`. (Above the frequency at which the code's lower limit 1e-6 takes over.) -/
theorem C80_rings {k : Consts} (hk : k.Pos) {mdot nu rg i d mass : ℝ} (hm : 0 < mdot) (hn : 0 < nu) (hr : 0 < rg) (hM : 0 < mass)
    (hx : 1e-6 ≤ k.h * nu / (k.kB * diskTemp k mass mdot (rg * k.G * mass / k.c ^ 2) (49 / 36 * (rg * k.G * mass / k.c ^ 2))) * (36 / 49 : ℝ) ^ (3 / 4 : ℝ)) :
    diskSed k mdot nu rg i d mass = k.toNJy * (Real.cos i / d ^ 2 *
      ∫ r in Set.Ioi (rg * k.G * mass / k.c ^ 2),
        planck k nu (diskTemp k mass mdot (rg * k.G * mass / k.c ^ 2) (49 / 36 * (rg * k.G * mass / k.c ^ 2)) *
          (r / (49 / 36 * (rg * k.G * mass / k.c ^ 2))) ^ (-(3 / 4) : ℝ)) * (2 * Real.pi * r)) := by
  have hG := hk.G
  have hc := hk.c
  have hh := hk.h
  have hkB := hk.kB
  have hs := hk.sigma
  have hpi := Real.pi_pos
  have erin : innerRadius k mass rg = rg * k.G * mass / k.c ^ 2 := by unfold innerRadius; ring
  rw [← erin] at hx ⊢
  have hrin : 0 < innerRadius k mass rg := by rw [erin]; positivity
  have eD : diskSed k mdot nu rg i d mass = (16 * Real.pi / (3 * d ^ 2) * Real.cos i * (k.kB * tempAtR0 k mass mdot (innerRadius k mass rg) / k.h) ^ (8 / 3 : ℝ) * k.h *
      nu ^ (1 / 3 : ℝ) / k.c ^ 2 * r0 (innerRadius k mass rg) ^ 2 *
      quad (max (k.h * nu / (k.kB * tempAtR0 k mass mdot (innerRadius k mass rg)) * (innerRadius k mass rg / r0 (innerRadius k mass rg)) ^ (3 / 4 : ℝ)) (1 / 10 ^ 6))) * k.toNJy := rfl
  rw [eD]
  clear eD erin
  generalize innerRadius k mass rg = rin at *
  have er0 : 49 / 36 * rin = r0 rin := by unfold r0; ring
  rw [er0] at hx ⊢
  rw [(C79_hottest_ring hk hM hm hrin).1] at hx ⊢
  have hT : 0 < tempAtR0 k mass mdot rin := by unfold tempAtR0; positivity
  have hR := r0_pos hrin
  have hq : rin / r0 rin = 36 / 49 := by unfold r0; field_simp; norm_num
  generalize tempAtR0 k mass mdot rin = T at *
  have hmax : max (k.h * nu / (k.kB * T) * (rin / r0 rin) ^ (3 / 4 : ℝ)) (1 / 10 ^ 6) = k.h * nu / (k.kB * T) * (rin / r0 rin) ^ (3 / 4 : ℝ) := by
    apply max_eq_left
    rw [hq]
    refine le_trans (le_of_eq ?_) hx
    norm_num
  rw [hmax]
  have hκ : 0 < k.h * nu / (k.kB * T) := by positivity
  have key := rings hκ hR hrin (2 * k.h * nu ^ 3 / k.c ^ 2)
  have e : ∫ r in Set.Ioi rin, planck k nu (T * (r / r0 rin) ^ (-(3 / 4) : ℝ)) * (2 * Real.pi * r) =
      ∫ r in Set.Ioi rin, 2 * k.h * nu ^ 3 / k.c ^ 2 / (Real.exp (k.h * nu / (k.kB * T) * (r / r0 rin) ^ (3 / 4 : ℝ)) - 1) * (2 * Real.pi * r) := by
    apply MeasureTheory.setIntegral_congr_fun measurableSet_Ioi
    intro r hr
    have hr0 : 0 < r := hrin.trans hr
    have hp : 0 < r / r0 rin := by positivity
    simp only [planck]
    have : k.h * nu / (k.kB * (T * (r / r0 rin) ^ (-(3 / 4) : ℝ))) = k.h * nu / (k.kB * T) * (r / r0 rin) ^ (3 / 4 : ℝ) := by
      rw [Real.rpow_neg hp.le]
      have := Real.rpow_pos_of_pos hp (3 / 4)
      field_simp
    rw [this]
  rw [e, key]
  have e8 : (k.h * nu / (k.kB * T)) ^ (-(8 / 3) : ℝ) = (k.kB * T / k.h) ^ (8 / 3 : ℝ) * (nu ^ (8 / 3 : ℝ))⁻¹ := by
    rw [Real.rpow_neg hκ.le, ← Real.inv_rpow hκ.le, ← Real.inv_rpow hn.le, ← Real.mul_rpow (by positivity) (by positivity)]
    congr 1
    field_simp
  have e3 : nu ^ 3 * (nu ^ (8 / 3 : ℝ))⁻¹ = nu ^ (1 / 3 : ℝ) := by
    rw [← Real.rpow_neg hn.le, ← Real.rpow_natCast, ← Real.rpow_add hn]
    norm_num
  rw [e8, ← e3]
  ring

/-- C80. The disk of an AGN of `m` solar masses that accretes at the Eddington ratio `edd`: it reaches inwards to six gravitational radii, accretes `1.4e18 m edd` grams a second, and is seen at
the frequency of the wavelength (in angstroms) from its distance (in parsecs). -/
theorem C80_disk_flux {k : Consts} (hk : k.Pos) {t0 m edd i d wave : ℝ} (hm : 0 < m) (he : 0 < edd) (hw : 0 < wave) {rin T nu : ℝ}
    (hrin : rin = 6 * k.G * (m * k.mSun) / k.c ^ 2) (hnu : nu = k.c / (wave * k.angToCm)) (hT : T = diskTemp k (m * k.mSun) (1.4e18 * m * edd) rin (49 / 36 * rin))
    (hx : 1e-6 ≤ k.h * nu / (k.kB * T) * (36 / 49 : ℝ) ^ (3 / 4 : ℝ)) :
    diskFlux k (params k t0 m edd i d) wave = k.toNJy * (Real.cos i / (d * k.pcToCm) ^ 2 *
      ∫ r in Set.Ioi rin, planck k nu (T * (r / (49 / 36 * rin)) ^ (-(3 / 4) : ℝ)) * (2 * Real.pi * r)) := by
  subst hT hnu hrin
  have h1 := hk.mSun
  have h2 := hk.c
  have h3 := hk.angToCm
  have h4 := C80_rings hk (mdot := 1.4e18 * m * edd) (nu := k.c / (wave * k.angToCm)) (rg := 6) (i := i) (d := d * k.pcToCm) (mass := m * k.mSun)
    (by positivity) (by positivity) (by norm_num) (by positivity) hx
  rw [← h4]
  unfold diskFlux
  rw [(C79_linear hk t0 m edd i d).2.1]
  rfl

/-- The hypotheses of `C80_rings` hold for some constants and parameters. -/
theorem rings_example : ∃ (k : Consts), k.Pos ∧
    1e-6 ≤ k.h * 1 / (k.kB * diskTemp k 1 1 (1 * k.G * 1 / k.c ^ 2) (49 / 36 * (1 * k.G * 1 / k.c ^ 2))) * (36 / 49 : ℝ) ^ (3 / 4 : ℝ) := by
  have h1 : ∃ h : ℝ, 0 < h ∧ ∀ T A : ℝ, T = diskTemp ⟨1, 1, 1, 1, 1, 1, 1, 1, 1⟩ 1 1 1 (49 / 36) → A = (36 / 49 : ℝ) ^ (3 / 4 : ℝ) → 1e-6 ≤ h * 1 / (1 * T) * A := by
    have hT : 0 < diskTemp ⟨1, 1, 1, 1, 1, 1, 1, 1, 1⟩ 1 1 1 (49 / 36) := by
      have hp : Consts.Pos ⟨1, 1, 1, 1, 1, 1, 1, 1, 1⟩ := by constructor <;> norm_num
      have := (C79_hottest_ring hp (mass := 1) (mdot := 1) (rin := 1) one_pos one_pos one_pos).1
      rw [show r0 1 = 49 / 36 by unfold r0; norm_num] at this
      rw [this]
      have := Real.pi_pos
      unfold tempAtR0
      positivity
    have hA : 0 < (36 / 49 : ℝ) ^ (3 / 4 : ℝ) := by positivity
    refine ⟨diskTemp ⟨1, 1, 1, 1, 1, 1, 1, 1, 1⟩ 1 1 1 (49 / 36) / (36 / 49 : ℝ) ^ (3 / 4 : ℝ), by positivity, ?_⟩
    rintro T A rfl rfl
    rw [mul_one, one_mul, div_right_comm, div_self hT.ne', one_div, inv_mul_cancel₀ hA.ne']
    norm_num
  obtain ⟨h, h0, h2⟩ := h1
  refine ⟨⟨1, 1, h, 1, 1, 1, 1, 1, 1⟩, by constructor <;> first | exact h0 | norm_num, ?_⟩
  have := h2 _ _ rfl rfl
  convert this using 4
  norm_num [diskTemp]

/-- C81. At the break the value is twice the normalisation of the galaxy type, `10 ** -2.13` for red and `10 ** -1.65` for blue galaxies, whatever the slopes. -/
theorem C81_normalisation_partial {br d1 d2 : ℝ} (hb : br ≠ 0) :
    eddingtonRatioDist "red" br [(br, d1, d2)] = .ok (.inr (2 * (10 : ℝ) ^ (-2.13 : ℝ))) ∧
    eddingtonRatioDist "blue" br [(br, d1, d2)] = .ok (.inr (2 * (10 : ℝ) ^ (-1.65 : ℝ))) := by
  unfold eddingtonRatioDist eddDist xi
  rw [if_pos (by simp), if_pos (by simp)]
  simp only [List.map_cons, List.map_nil, div_self hb, Real.one_rpow]
  constructor
  · norm_num
    ring
  · have hb : ("blue" == "red") = false := by decide
    rw [hb]
    norm_num
    ring

/-- C79. The zero point of the i band magnitude: a luminosity of `10 ** 36` gives magnitude 0. -/
theorem C79_magnitude_zero : magI (10 ^ 36) = 0 := by
  unfold magI
  rw [Real.logb_pow, Real.logb_self_eq_one (by norm_num)]
  norm_num

end LCL.AgnProps
