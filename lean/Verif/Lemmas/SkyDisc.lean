import Verif.Spec.Sky
import Mathlib.Analysis.Convex.SpecificFunctions.Deriv

/-!
# A disc in the (RA, dec) plane lies inside the circle of the same radius on the sky
-/

namespace LCL.Sky
open Real

theorem sin_ratio {t s : ℝ} (h0 : 0 ≤ t) (hts : t ≤ s) (hs : 0 < s) (hpi : s ≤ π) : sin s / s * t ≤ sin t := by
  have hc := strictConcaveOn_sin_Icc.concaveOn
  have h := hc.2 (show (0:ℝ) ∈ Set.Icc 0 π from ⟨le_rfl, pi_pos.le⟩) (show s ∈ Set.Icc 0 π from ⟨hs.le, hpi⟩)
    (show 0 ≤ 1 - t / s by rw [sub_nonneg, div_le_one hs]; exact hts) (show 0 ≤ t / s by positivity) (by ring)
  simp only [smul_eq_mul, mul_zero, sin_zero, zero_add] at h
  rw [div_mul_cancel₀ _ hs.ne'] at h
  calc sin s / s * t = t / s * sin s := by ring
    _ ≤ sin t := h

/-- `cos t + k t^2 / 2` with `k = sin s / s` is smallest at `s`. -/
theorem cos_parabola {s t : ℝ} (hs : 0 < s) (hspi : s ≤ π) (h0 : 0 ≤ t) (hpi : t ≤ π) :
    cos s + sin s / s * s ^ 2 / 2 ≤ cos t + sin s / s * t ^ 2 / 2 := by
  set k := sin s / s with hk
  have hd : ∀ x : ℝ, HasDerivAt (fun y => cos y + k * y ^ 2 / 2) (-sin x + k * x) x := by
    intro x
    have h1 : HasDerivAt (fun y : ℝ => k * y ^ 2 / 2) (k * x) x := by
      have := ((hasDerivAt_pow 2 x).const_mul k).div_const 2
      have e : k * (((2:ℕ):ℝ) * x ^ (2 - 1)) / 2 = k * x := by norm_num; ring
      rw [e] at this
      exact this
    exact (hasDerivAt_cos x).add h1
  have hcont : Continuous (fun y : ℝ => cos y + k * y ^ 2 / 2) := by fun_prop
  rcases le_total t s with h | h
  · have hanti : AntitoneOn (fun y : ℝ => cos y + k * y ^ 2 / 2) (Set.Icc 0 s) := by
      apply antitoneOn_of_deriv_nonpos (convex_Icc 0 s) hcont.continuousOn (fun x _ => (hd x).differentiableAt.differentiableWithinAt)
      intro x hx
      rw [interior_Icc] at hx
      rw [(hd x).deriv]
      have := sin_ratio hx.1.le hx.2.le hs hspi
      linarith
    exact hanti ⟨h0, h⟩ ⟨hs.le, le_rfl⟩ h
  · have hmono : MonotoneOn (fun y : ℝ => cos y + k * y ^ 2 / 2) (Set.Icc s π) := by
      apply monotoneOn_of_deriv_nonneg (convex_Icc s π) hcont.continuousOn (fun x _ => (hd x).differentiableAt.differentiableWithinAt)
      intro x hx
      rw [interior_Icc] at hx
      rw [(hd x).deriv]
      have hx0 : 0 < x := hs.trans hx.1
      have h1 := sin_ratio hs.le hx.1.le hx0 hx.2.le
      have h2 : sin x ≤ k * x := by
        rw [hk, div_mul_eq_mul_div, le_div_iff₀ hs]
        rw [div_mul_eq_mul_div, div_le_iff₀ hx0] at h1
        exact h1
      linarith
    exact hmono ⟨le_rfl, hspi⟩ ⟨h, hpi⟩ h

theorem cos_sqrt_le (a b r : ℝ) (h : a ^ 2 + b ^ 2 ≤ r ^ 2) (h0 : 0 ≤ r) (hr : r ≤ π / 2) : cos r ≤ cos a * cos b := by
  have key : ∀ a b : ℝ, 0 ≤ b → b ≤ a → a ^ 2 + b ^ 2 ≤ r ^ 2 → cos r ≤ cos a * cos b := by
    intro a b hb hab h
    have hpp := pi_pos
    rcases le_or_gt (a ^ 2 + b ^ 2) 0 with hz | hz
    · have ha0 : a = 0 := by nlinarith [sq_nonneg a, sq_nonneg b]
      have hb0 : b = 0 := by nlinarith [sq_nonneg a, sq_nonneg b]
      subst ha0; subst hb0
      simp [cos_le_one]
    · set s := sqrt (a ^ 2 + b ^ 2) with hs
      have hspos : 0 < s := sqrt_pos.2 hz
      have hs2 : s ^ 2 = a ^ 2 + b ^ 2 := sq_sqrt hz.le
      have hsr : s ≤ r := by
        rw [hs]; exact sqrt_le_iff.2 ⟨h0, h⟩
      have hsum : a + b ≤ π := by
        have h1 : (a + b) ^ 2 ≤ 2 * r ^ 2 := by nlinarith [sq_nonneg (a - b)]
        have h2 : r ^ 2 ≤ (π / 2) ^ 2 := by nlinarith
        nlinarith
      have e1 := cos_parabola hspos (by linarith) (show 0 ≤ a + b by linarith) hsum
      have e2 := cos_parabola hspos (by linarith) (show 0 ≤ a - b by linarith) (by linarith)
      have e3 : sin s / s * (a + b) ^ 2 / 2 + sin s / s * (a - b) ^ 2 / 2 = 2 * (sin s / s * s ^ 2 / 2) := by rw [hs2]; ring
      have e4 : cos (a + b) + cos (a - b) = 2 * (cos a * cos b) := by rw [cos_add, cos_sub]; ring
      have e5 : cos r ≤ cos s := cos_le_cos_of_nonneg_of_le_pi hspos.le (by linarith) hsr
      linarith
  rcases le_total |b| |a| with hba | hba
  · have := key |a| |b| (abs_nonneg _) hba (by rw [sq_abs, sq_abs]; exact h)
    rwa [cos_abs, cos_abs] at this
  · have := key |b| |a| (abs_nonneg _) hba (by rw [sq_abs, sq_abs]; linarith)
    rw [cos_abs, cos_abs] at this
    linarith [mul_comm (cos a) (cos b)]

theorem dot_dir (ra dec ra' dec' : ℝ) : dot (dir ra dec) (dir ra' dec') =
    cos (rad dec) * cos (rad dec') * cos (rad ra - rad ra') + sin (rad dec) * sin (rad dec') := by
  unfold dot dir
  rw [cos_sub]
  ring

/-- Two positions whose coordinate differences lie in a disc of radius `R` degrees are at most `R` degrees apart on the sky. -/
theorem disc_angle (ra dec x y R : ℝ) (hR : 0 ≤ R) (h : x ^ 2 + y ^ 2 ≤ R ^ 2) :
    angle (dir (ra + x) (dec + y)) (dir ra dec) ≤ rad R := by
  unfold angle
  have hpp := pi_pos
  rcases le_total (rad R) π with hle | hle
  · have hradR : 0 ≤ rad R := by unfold rad; positivity
    have hcos : cos (rad R) ≤ dot (dir (ra + x) (dec + y)) (dir ra dec) := by
      rw [dot_dir]
      set d1 := rad (dec + y) with hd1
      set d2 := rad dec with hd2
      have hb : rad (ra + x) - rad ra = rad x := by unfold rad; ring
      have ha : d1 - d2 = rad y := by rw [hd1, hd2]; unfold rad; ring
      rw [hb]
      have h1 : cos (rad y) = cos d1 * cos d2 + sin d1 * sin d2 := by rw [← ha, cos_sub]
      have h2 : cos d1 * cos d2 ≤ (cos (rad y) + 1) / 2 := by
        have := cos_le_one (d1 + d2)
        rw [cos_add] at this
        linarith
      have h3 := cos_sqrt_le (rad y / 2) (rad x / 2) (rad R / 2) (by
        have : (rad y / 2) ^ 2 + (rad x / 2) ^ 2 = (π / 360) ^ 2 * (x ^ 2 + y ^ 2) := by unfold rad; ring
        rw [this]
        have : (rad R / 2) ^ 2 = (π / 360) ^ 2 * R ^ 2 := by unfold rad; ring
        rw [this]
        exact mul_le_mul_of_nonneg_left h (by positivity)) (by linarith) (by linarith)
      have h4 : 0 ≤ cos (rad R / 2) := cos_nonneg_of_mem_Icc ⟨by linarith, by linarith⟩
      have eR : cos (rad R) = 2 * cos (rad R / 2) ^ 2 - 1 := by rw [← cos_two_mul]; congr 1; ring
      have ey : cos (rad y) = 2 * cos (rad y / 2) ^ 2 - 1 := by rw [← cos_two_mul]; congr 1; ring
      have ex : cos (rad x) = 2 * cos (rad x / 2) ^ 2 - 1 := by rw [← cos_two_mul]; congr 1; ring
      have hsq : cos (rad R / 2) ^ 2 ≤ (cos (rad y / 2) * cos (rad x / 2)) ^ 2 := by
        exact pow_le_pow_left₀ h4 h3 2
      have hx1 : 0 ≤ 1 - cos (rad x) := by linarith [cos_le_one (rad x)]
      have h5 : cos d1 * cos d2 * (1 - cos (rad x)) ≤ (cos (rad y) + 1) / 2 * (1 - cos (rad x)) :=
        mul_le_mul_of_nonneg_right h2 hx1
      have h6 : cos d1 * cos d2 * cos (rad x) + sin d1 * sin d2 = cos (rad y) - cos d1 * cos d2 * (1 - cos (rad x)) := by rw [h1]; ring
      rw [h6]
      have h7 : (cos (rad y) + 1) / 2 * (1 - cos (rad x)) = cos (rad y) + 1 - 2 * (cos (rad y / 2) * cos (rad x / 2)) ^ 2 := by
        rw [ey, ex]; ring
      linarith
    calc arccos _ ≤ arccos (cos (rad R)) := antitone_arccos hcos
      _ = rad R := arccos_cos hradR hle
  · exact (arccos_le_pi _).trans hle

end LCL.Sky
