import Mathlib.MeasureTheory.Measure.Lebesgue.VolumeOfBalls
import Mathlib.MeasureTheory.Integral.IntervalIntegral.FundThmCalculus
import Mathlib.Analysis.SpecialFunctions.Trigonometric.InverseDeriv
import Mathlib.Analysis.SpecialFunctions.Sqrt
import Mathlib.MeasureTheory.Measure.Haar.InnerProductSpace
import Mathlib.Analysis.Complex.Isometry

/-!
# The area of the intersection of two discs
-/

namespace LCL.Lens
open MeasureTheory Real Set

/-- An antiderivative of the height of a circle of radius `r`. -/
noncomputable def prim (r x : ℝ) : ℝ := x * √(r ^ 2 - x ^ 2) + r ^ 2 * arcsin (x / r)

theorem prim_deriv {r x : ℝ} (hr : 0 < r) (h1 : -r < x) (h2 : x < r) : HasDerivAt (prim r) (2 * √(r ^ 2 - x ^ 2)) x := by
  have hpos : 0 < r ^ 2 - x ^ 2 := by nlinarith
  have hs : 0 < √(r ^ 2 - x ^ 2) := Real.sqrt_pos.2 hpos
  have d1 : HasDerivAt (fun y : ℝ => r ^ 2 - y ^ 2) (-(2 * x)) x := by
    have := ((hasDerivAt_id x).pow 2).const_sub (r ^ 2)
    simpa using this
  have d2 := d1.sqrt (ne_of_gt hpos)
  have d3 := (hasDerivAt_id x).mul d2
  have hq1 : x / r ≠ -1 := by
    intro h
    rw [div_eq_iff hr.ne'] at h
    linarith
  have hq2 : x / r ≠ 1 := by
    intro h
    rw [div_eq_iff hr.ne'] at h
    linarith
  have d4 : HasDerivAt (fun y : ℝ => y / r) (1 / r) x := (hasDerivAt_id x).div_const r
  have d5 := ((Real.hasDerivAt_arcsin hq1 hq2).comp x d4).const_mul (r ^ 2)
  have d6 := d3.add d5
  have hsq : √(1 - (x / r) ^ 2) = √(r ^ 2 - x ^ 2) / r := by
    rw [show 1 - (x / r) ^ 2 = (r ^ 2 - x ^ 2) / r ^ 2 by field_simp, Real.sqrt_div hpos.le, Real.sqrt_sq hr.le]
  refine HasDerivAt.congr_deriv d6 ?_
  rw [hsq]
  have := Real.sq_sqrt hpos.le
  simp only [id]
  field_simp
  linear_combination (-1) * this

theorem prim_cont {r : ℝ} : Continuous (prim r) := by
  unfold prim
  exact (continuous_id.mul (by fun_prop)).add (continuous_const.mul (Real.continuous_arcsin.comp (continuous_id.div_const r)))

/-- The part of a disc of radius `r` around `(c, 0)` in a vertical strip. -/
def strip (c r l u : ℝ) : Set (ℝ × ℝ) := {p | l ≤ p.1 ∧ p.1 ≤ u ∧ (p.1 - c) ^ 2 + p.2 ^ 2 ≤ r ^ 2}

theorem strip_closed (c r l u : ℝ) : IsClosed (strip c r l u) := by
  unfold strip
  refine IsClosed.inter (s₁ := {p : ℝ × ℝ | l ≤ p.1}) (isClosed_le continuous_const continuous_fst) ?_
  refine IsClosed.inter (s₁ := {p : ℝ × ℝ | p.1 ≤ u}) (isClosed_le continuous_fst continuous_const) ?_
  exact isClosed_le (f := fun p : ℝ × ℝ => (p.1 - c) ^ 2 + p.2 ^ 2) (by fun_prop) continuous_const

theorem strip_volume {c r l u : ℝ} (hr : 0 < r) (h1 : c - r ≤ l) (h2 : l ≤ u) (h3 : u ≤ c + r) :
    volume (strip c r l u) = ENNReal.ofReal (prim r (u - c) - prim r (l - c)) := by
  have hslice : ∀ x : ℝ, volume (Prod.mk x ⁻¹' strip c r l u) = (Icc l u).indicator (fun x => ENNReal.ofReal (2 * √(r ^ 2 - (x - c) ^ 2))) x := by
    intro x
    by_cases hx : x ∈ Icc l u
    · rw [indicator_of_mem hx]
      have hle : (x - c) ^ 2 ≤ r ^ 2 := by
        apply sq_le_sq'
        · linarith [hx.1]
        · linarith [hx.2]
      have : Prod.mk x ⁻¹' strip c r l u = Icc (-√(r ^ 2 - (x - c) ^ 2)) (√(r ^ 2 - (x - c) ^ 2)) := by
        ext y
        simp only [strip, mem_preimage, mem_setOf_eq, mem_Icc]
        constructor
        · rintro ⟨_, _, h⟩
          have : |y| ≤ √(r ^ 2 - (x - c) ^ 2) := Real.abs_le_sqrt (by linarith)
          exact abs_le.1 this
        · rintro ⟨h, h'⟩
          refine ⟨hx.1, hx.2, ?_⟩
          have h4 : y ^ 2 ≤ √(r ^ 2 - (x - c) ^ 2) ^ 2 := sq_le_sq' h h'
          rw [Real.sq_sqrt (by linarith)] at h4
          linarith
      rw [this, Real.volume_Icc]
      congr 1
      ring
    · rw [indicator_of_notMem hx]
      have : Prod.mk x ⁻¹' strip c r l u = ∅ := by
        ext y
        simp only [strip, mem_preimage, mem_setOf_eq, mem_empty_iff_false, iff_false]
        rintro ⟨a, b, _⟩
        exact hx ⟨a, b⟩
      rw [this, measure_empty]
  have hcont : Continuous fun x : ℝ => 2 * √(r ^ 2 - (x - c) ^ 2) := by fun_prop
  rw [show (volume : Measure (ℝ × ℝ)) = (volume : Measure ℝ).prod volume from rfl, Measure.prod_apply (strip_closed c r l u).measurableSet]
  rw [lintegral_congr hslice, lintegral_indicator measurableSet_Icc, ← ofReal_integral_eq_lintegral_ofReal]
  · congr 1
    rw [integral_Icc_eq_integral_Ioc, ← intervalIntegral.integral_of_le h2]
    have := intervalIntegral.integral_eq_sub_of_hasDerivAt_of_le (f := fun x => prim r (x - c)) (f' := fun x => 2 * √(r ^ 2 - (x - c) ^ 2)) h2
      ((prim_cont (r := r)).comp (continuous_id.sub continuous_const)).continuousOn
      (by
        intro x hx
        have hd := (prim_deriv (r := r) (x := x - c) hr (by linarith [hx.1]) (by linarith [hx.2])).comp x ((hasDerivAt_id x).sub_const c)
        rw [mul_one] at hd
        exact hd)
      (hcont.intervalIntegrable _ _)
    exact this
  · exact hcont.continuousOn.integrableOn_Icc
  · exact Filter.Eventually.of_forall fun x => by positivity

/-- The intersection of two discs, one around the origin and one around `(d, 0)`. -/
def lens (d r1 r2 : ℝ) : Set (ℝ × ℝ) := {p | p.1 ^ 2 + p.2 ^ 2 ≤ r1 ^ 2 ∧ (p.1 - d) ^ 2 + p.2 ^ 2 ≤ r2 ^ 2}

theorem prim_top {r : ℝ} (hr : 0 < r) : prim r r = r ^ 2 * (π / 2) := by
  unfold prim
  rw [sub_self, Real.sqrt_zero, mul_zero, zero_add, div_self hr.ne', arcsin_one]

theorem prim_neg (r x : ℝ) : prim r (-x) = -prim r x := by
  unfold prim
  rw [neg_div, arcsin_neg, neg_sq]
  ring

/-- The area of the lens of two discs that cross. -/
theorem lens_volume {d r1 r2 : ℝ} (h1 : 0 < r1) (h2 : 0 < r2) (ha : |r1 - r2| < d) (hb : d < r1 + r2) :
    volume (lens d r1 r2) = ENNReal.ofReal
      (r1 ^ 2 * arccos ((d ^ 2 + r1 ^ 2 - r2 ^ 2) / (2 * r1 * d)) + r2 ^ 2 * arccos ((d ^ 2 + r2 ^ 2 - r1 ^ 2) / (2 * r2 * d)) -
        r1 * d * sin (arccos ((d ^ 2 + r1 ^ 2 - r2 ^ 2) / (2 * r1 * d)))) := by
  have hd : 0 < d := lt_of_le_of_lt (abs_nonneg _) ha
  obtain ⟨ha1, ha2⟩ := abs_lt.1 ha
  obtain ⟨x0, hx0⟩ : ∃ x0, x0 = (d ^ 2 + r1 ^ 2 - r2 ^ 2) / (2 * d) := ⟨_, rfl⟩
  have e0 : 2 * d * x0 = d ^ 2 + r1 ^ 2 - r2 ^ 2 := by rw [hx0]; field_simp
  have b1 : -r1 ≤ x0 := by
    by_contra h
    push Not at h
    nlinarith
  have b2 : x0 ≤ r1 := by
    by_contra h
    push Not at h
    nlinarith
  have b3 : d - r2 ≤ x0 := by
    by_contra h
    push Not at h
    nlinarith
  have b4 : x0 ≤ d + r2 := by
    by_contra h
    push Not at h
    nlinarith
  have hset : lens d r1 r2 = strip 0 r1 x0 r1 ∪ strip d r2 (d - r2) x0 := by
    ext p
    simp only [lens, strip, mem_setOf_eq, mem_union]
    constructor
    · rintro ⟨p1, p2⟩
      rcases le_total x0 p.1 with h | h
      · left
        refine ⟨h, ?_, by linarith [sub_zero p.1, congrArg (· ^ 2) (sub_zero p.1)]⟩
        have := Real.le_sqrt_of_sq_le (show p.1 ^ 2 ≤ r1 ^ 2 by nlinarith [sq_nonneg p.2])
        rwa [Real.sqrt_sq h1.le] at this
      · right
        refine ⟨?_, h, p2⟩
        have := Real.abs_le_sqrt (show (p.1 - d) ^ 2 ≤ r2 ^ 2 by nlinarith [sq_nonneg p.2])
        rw [Real.sqrt_sq h2.le] at this
        linarith [(abs_le.1 this).1]
    · rintro (⟨a, b, c⟩ | ⟨a, b, c⟩)
      · rw [sub_zero] at c
        exact ⟨c, by nlinarith⟩
      · exact ⟨by nlinarith, c⟩
  have hdisj : AEDisjoint volume (strip 0 r1 x0 r1) (strip d r2 (d - r2) x0) := by
    have hsub : strip 0 r1 x0 r1 ∩ strip d r2 (d - r2) x0 ⊆ ({x0} : Set ℝ) ×ˢ (univ : Set ℝ) := by
      rintro p ⟨⟨a, _, _⟩, ⟨_, b, _⟩⟩
      exact ⟨le_antisymm b a, mem_univ _⟩
    refine measure_mono_null hsub ?_
    rw [show (volume : Measure (ℝ × ℝ)) = (volume : Measure ℝ).prod volume from rfl, Measure.prod_prod]
    simp
  rw [hset, measure_union₀ (strip_closed _ _ _ _).measurableSet.nullMeasurableSet hdisj, strip_volume h1 (by linarith) b2 (by linarith),
    strip_volume h2 le_rfl b3 b4]
  have hmono : ∀ {r a b : ℝ}, 0 < r → -r ≤ a → a ≤ b → b ≤ r → 0 ≤ prim r b - prim r a := by
    intro r a b hr h1 h2 h3
    have := monotoneOn_of_deriv_nonneg (convex_Icc (-r) r) (prim_cont (r := r)).continuousOn
      (fun x hx => by
        rw [interior_Icc] at hx
        exact (prim_deriv hr hx.1 hx.2).differentiableAt.differentiableWithinAt)
      (fun x hx => by
        rw [interior_Icc] at hx
        rw [(prim_deriv hr hx.1 hx.2).deriv]
        positivity)
    linarith [this ⟨h1, by linarith⟩ ⟨by linarith, h3⟩ h2]
  rw [← ENNReal.ofReal_add]
  · congr 1
    rw [sub_zero, sub_zero, show d - r2 - d = -r2 by ring, prim_neg, prim_top h1, prim_top h2]
    have q1 : (d ^ 2 + r1 ^ 2 - r2 ^ 2) / (2 * r1 * d) = x0 / r1 := by rw [hx0]; field_simp
    have q2 : (d ^ 2 + r2 ^ 2 - r1 ^ 2) / (2 * r2 * d) = (d - x0) / r2 := by
      rw [hx0]
      field_simp
      ring
    rw [q1, q2, sin_arccos]
    have hs : √(1 - (x0 / r1) ^ 2) = √(r1 ^ 2 - x0 ^ 2) / r1 := by
      rw [show 1 - (x0 / r1) ^ 2 = (r1 ^ 2 - x0 ^ 2) / r1 ^ 2 by field_simp, Real.sqrt_div (by nlinarith), Real.sqrt_sq h1.le]
    have hh : r2 ^ 2 - (x0 - d) ^ 2 = r1 ^ 2 - x0 ^ 2 := by nlinarith
    rw [hs]
    unfold prim
    rw [hh, show (x0 - d) / r2 = -((d - x0) / r2) by ring, arcsin_neg]
    unfold arccos
    field_simp
    ring
  · exact hmono h1 (by linarith) (by linarith) (by linarith)
  · exact hmono h2 (by linarith) (by linarith) (by linarith)

end LCL.Lens
