import Verif.Lemmas.Lens
import Verif.Props.Periodic

/-!
# C73: the overlap of the discs of two stars is the area of the sky they share
-/

namespace LCL.BinaryProps
open LCL LCL.Lens MeasureTheory Real Set Metric

theorem mem_ball_iff {z w : ℂ} {r : ℝ} (hr : 0 < r) : w ∈ closedBall z r ↔ (w.re - z.re) ^ 2 + (w.im - z.im) ^ 2 ≤ r ^ 2 := by
  rw [mem_closedBall, Complex.dist_eq, Complex.norm_def, Real.sqrt_le_left hr.le, Complex.normSq_apply, Complex.sub_re, Complex.sub_im]
  rw [← sq, ← sq]

/-- Two discs on the real axis. -/
theorem volume_axis {d r1 r2 : ℝ} (h1 : 0 < r1) (h2 : 0 < r2) :
    volume (closedBall (0 : ℂ) r1 ∩ closedBall (d : ℂ) r2) = volume (lens d r1 r2) := by
  have : closedBall (0 : ℂ) r1 ∩ closedBall (d : ℂ) r2 = Complex.measurableEquivRealProd ⁻¹' lens d r1 r2 := by
    ext w
    rw [mem_inter_iff, mem_ball_iff h1, mem_ball_iff h2]
    simp [lens, Complex.measurableEquivRealProd_apply]
  rw [this, Complex.volume_preserving_equiv_real_prod.measure_preimage_equiv]

/-- The area of the overlap does not depend on the direction in which the second disc lies. -/
theorem volume_rotate {z : ℂ} (hz : z ≠ 0) (r1 r2 : ℝ) :
    volume (closedBall (0 : ℂ) r1 ∩ closedBall z r2) = volume (closedBall (0 : ℂ) r1 ∩ closedBall ((‖z‖ : ℝ) : ℂ) r2) := by
  have hn : (‖z‖ : ℂ) ≠ 0 := by exact_mod_cast norm_ne_zero_iff.2 hz
  obtain ⟨u, hu⟩ : ∃ u : Circle, (u : ℂ) = z / ‖z‖ := ⟨Circle.ofConjDivSelf z |> fun _ => ⟨z / ‖z‖, by
    rw [Submonoid.unitSphere, Submonoid.mem_mk] 
    simp [hz]⟩, rfl⟩
  have hp := (rotation u).measurePreserving
  have : closedBall (0 : ℂ) r1 ∩ closedBall ((‖z‖ : ℝ) : ℂ) r2 = rotation u ⁻¹' (closedBall (0 : ℂ) r1 ∩ closedBall z r2) := by
    ext w
    simp only [mem_inter_iff, mem_closedBall, mem_preimage]
    have e0 : rotation u 0 = 0 := map_zero _
    have ez : rotation u (‖z‖ : ℂ) = z := by
      rw [rotation_apply, hu, div_mul_cancel₀ _ hn]
    have d0 : dist (rotation u w) 0 = dist w 0 := by
      conv_lhs => rw [← e0]
      exact (rotation u).dist_map _ _
    have dz : dist (rotation u w) z = dist w (‖z‖ : ℂ) := by
      conv_lhs => rw [← ez]
      exact (rotation u).dist_map _ _
    rw [d0, dz]
  rw [this, hp.measure_preimage ((isClosed_closedBall.inter isClosed_closedBall).measurableSet.nullMeasurableSet)]

/-- **C73.** The area the code computes for the overlap is the area of the sky that two discs of these radii share, for all radii and all distances of their
centres (in every direction). -/
theorem C73_area (z : ℂ) {r1 r2 : ℝ} (h1 : 0 < r1) (h2 : 0 < r2) :
    volume (closedBall (0 : ℂ) r1 ∩ closedBall z r2) = ENNReal.ofReal (overlapArea ‖z‖ r1 r2) := by
  unfold overlapArea
  by_cases ha : ‖z‖ ≥ r1 + r2
  · rw [if_pos ha, ENNReal.ofReal_zero]
    refine measure_mono_null ?_ (Measure.addHaar_sphere volume (0 : ℂ) r1)
    rintro w ⟨w1, w2⟩
    rw [mem_closedBall, dist_zero_right] at w1
    rw [mem_closedBall, dist_comm, Complex.dist_eq] at w2
    rw [mem_sphere, dist_zero_right]
    have := norm_add_le (z - w) w
    rw [sub_add_cancel] at this
    linarith
  · rw [if_neg ha]
    by_cases hb : ‖z‖ ≤ |r1 - r2|
    · rw [if_pos hb]
      have hball : ∀ (c : ℂ) {r : ℝ}, 0 < r → volume (closedBall c r) = ENNReal.ofReal (π * r ^ 2) := by
        intro c r hr
        rw [Complex.volume_closedBall, ENNReal.ofReal_mul pi_pos.le, mul_comm, ENNReal.ofReal_pow hr.le]
        congr 1
        rw [← NNReal.coe_real_pi, ENNReal.ofReal_coe_nnreal]
      rcases le_total r1 r2 with h | h
      · rw [abs_of_nonpos (by linarith)] at hb
        rw [inter_eq_left.2 (closedBall_subset_closedBall' (by rw [dist_zero_left]; linarith)), min_eq_left h, hball _ h1]
      · rw [abs_of_nonneg (by linarith)] at hb
        rw [inter_eq_right.2 (closedBall_subset_closedBall' (by rw [dist_zero_right]; linarith)), min_eq_right h, hball _ h2]
    · rw [if_neg hb]
      push Not at ha hb
      have hz : z ≠ 0 := by
        rintro rfl
        rw [norm_zero] at hb
        exact absurd hb (not_lt.2 (abs_nonneg _))
      rw [volume_rotate hz, volume_axis h1 h2, lens_volume h1 h2 hb ha]
      change ENNReal.ofReal (lensArea ‖z‖ r1 r2) = _
      by_cases hc : lensArea ‖z‖ r1 r2 ≥ 0
      · rw [if_pos hc]
      · rw [if_neg hc, ENNReal.ofReal_zero, ENNReal.ofReal_of_nonpos (le_of_lt (not_le.1 hc))]

end LCL.BinaryProps
