import Verif.Spec.Photometry
import Verif.Lemmas.ObsTable

/-!
# Properties C42 (noise model), C43 (magnitudes and fluxes), C51 (zero points)
-/

namespace LCL.PhotometryProps
open LCL LCL.PhotSpec Real
variable {R : Type}

/-! ## C42 -/

theorem variance_num {flux x : ℝ} {a : NoiseArgs} (h : a.readout = .num x) :
    totalVariance flux a = documentedVariance (flux / a.zp) a.psf a.sky x a.count a.dark a.exptime := by
  unfold totalVariance readoutVariance documentedVariance
  rw [h]
  ring

theorem variance_nonneg {flux : ℝ} {a : NoiseArgs} (h : Physical flux a) : 0 ≤ totalVariance flux a := by
  have h1 : 0 ≤ flux / a.zp := div_nonneg h.flux h.zp.le
  have h2 : 0 ≤ a.sky * a.psf := mul_nonneg h.sky h.psf
  have h3 : 0 ≤ a.dark * a.exptime * a.psf := mul_nonneg (mul_nonneg h.dark h.exptime) h.psf
  have h4 : 0 ≤ readoutVariance a := by
    unfold readoutVariance
    cases a.readout with
    | num x => exact mul_nonneg (mul_nonneg (sq_nonneg x) h.psf) h.count
    | func f => exact sq_nonneg _
  unfold totalVariance
  linarith

theorem std_eq {flux : ℝ} {a : NoiseArgs} (hz : a.zp ≠ 0) (hv : 0 ≤ totalVariance flux a) :
    poissonStd flux a = some (√(totalVariance flux a) * a.zp) := by
  unfold poissonStd
  rw [if_neg hz, if_neg (not_lt.2 hv)]

/-- C42. For physical inputs the flux error is a non-negative number whose square is the square of the zero point
times the documented variance (readout noise given as a number per pixel and exposure). -/
theorem C42_formula {flux x : ℝ} {a : NoiseArgs} (h : Physical flux a) (hx : a.readout = .num x) :
    ∃ e, poissonStd flux a = some e ∧ 0 ≤ e ∧
      e ^ 2 = a.zp ^ 2 * documentedVariance (flux / a.zp) a.psf a.sky x a.count a.dark a.exptime := by
  have hv := variance_nonneg h
  refine ⟨_, std_eq h.zp.ne' hv, mul_nonneg (sqrt_nonneg _) h.zp.le, ?_⟩
  rw [mul_pow, sq_sqrt hv, variance_num hx]
  ring

/-- C42. The flux error does not decrease when flux, sky, readout noise, dark current, exposure time, number of
exposures or PSF area increase. -/
theorem C42_monotone {f f' x x' : ℝ} {a a' : NoiseArgs} (h : Physical f a) (h' : Physical f' a')
    (hx : a.readout = .num x) (hx' : a'.readout = .num x') (hz : a.zp = a'.zp)
    (hf : f ≤ f') (hxx : x ≤ x') (hs : a.sky ≤ a'.sky) (hd : a.dark ≤ a'.dark) (ht : a.exptime ≤ a'.exptime)
    (hc : a.count ≤ a'.count) (hp : a.psf ≤ a'.psf) :
    ∃ e e', poissonStd f a = some e ∧ poissonStd f' a' = some e' ∧ e ≤ e' := by
  refine ⟨_, _, std_eq h.zp.ne' (variance_nonneg h), std_eq h'.zp.ne' (variance_nonneg h'), ?_⟩
  rw [← hz]
  apply mul_le_mul_of_nonneg_right _ h.zp.le
  apply sqrt_le_sqrt
  rw [variance_num hx, variance_num hx']
  unfold documentedVariance
  have x0 := h.readout x hx
  have h1 : f / a.zp ≤ f' / a'.zp := by rw [← hz]; exact div_le_div_of_nonneg_right hf h.zp.le
  have h2 : a.psf * a.sky ≤ a'.psf * a'.sky := mul_le_mul hp hs h.sky h'.psf
  have h3 : a.psf * a.count * x ^ 2 ≤ a'.psf * a'.count * x' ^ 2 :=
    mul_le_mul (mul_le_mul hp hc h.count h'.psf) (pow_le_pow_left₀ x0 hxx 2) (sq_nonneg x) (mul_nonneg h'.psf h'.count)
  have h4 : a.psf * a.dark * a.exptime ≤ a'.psf * a'.dark * a'.exptime :=
    mul_le_mul (mul_le_mul hp hd h.dark h'.psf) ht h.exptime (mul_nonneg h'.psf h'.dark)
  linarith

/-- C42. Scaling flux and zero point together (a change of flux unit) scales the error. -/
theorem C42_scaling (c flux : ℝ) (hc : 0 < c) (a : NoiseArgs) :
    poissonStd (c * flux) { a with zp := c * a.zp } = (poissonStd flux a).map (c * ·) := by
  unfold poissonStd
  by_cases hz : a.zp = 0
  · simp [hz]
  · have hv : totalVariance (c * flux) { a with zp := c * a.zp } = totalVariance flux a := by
      unfold totalVariance readoutVariance
      simp only
      rw [mul_div_mul_left _ _ hc.ne']
    have hz' : c * a.zp ≠ 0 := mul_ne_zero hc.ne' hz
    rw [if_neg hz, if_neg (by simpa using hz'), hv]
    by_cases hn : totalVariance flux a < 0
    · rw [if_pos hn, if_pos hn]; rfl
    · rw [if_neg hn, if_neg hn]
      simp only [Option.map_some]
      congr 1; ring

/-- C42. Added noise: every flux gets its own draw times its own error; as many draws are used as there are
fluxes. It succeeds exactly when there is one non-negative error per flux. -/
theorem C42_noise (draw : R → ℝ × R) (flux err : List ℝ) (r : R) :
    (∀ out r', applyNoise draw flux err r = .ok (out, r') →
      out.length = flux.length ∧ r' = afterDraws draw r flux.length ∧
      ∀ (i : Nat) (f e : ℝ), flux[i]? = some f → err[i]? = some e → out[i]? = some (f + e * drawAt draw r i)) ∧
    ((∃ out, applyNoise draw flux err r = .ok out) ↔ flux.length = err.length ∧ ∀ e ∈ err, 0 ≤ e) := by
  induction flux generalizing err r with
  | nil =>
    cases err with
    | nil =>
      refine ⟨?_, by simp [applyNoise]⟩
      intro out r' h; cases h; exact ⟨rfl, rfl, by simp⟩
    | cons e es => exact ⟨(by intro out r' h; cases h), by simp [applyNoise]⟩
  | cons f fs ih =>
    cases err with
    | nil => exact ⟨(by intro out r' h; cases h), by simp [applyNoise]⟩
    | cons e es =>
      obtain ⟨ih1, ih2⟩ := ih es (draw r).2
      constructor
      · intro out r' h
        simp only [applyNoise] at h
        split at h
        · cases h
        cases hr : applyNoise draw fs es (draw r).2 with
        | error x => rw [hr] at h; cases h
        | ok q =>
          obtain ⟨l, r2⟩ := q
          rw [hr] at h
          cases h
          obtain ⟨a, b, c⟩ := ih1 l _ hr
          refine ⟨by simp [a], b, ?_⟩
          intro i f' e' hf he
          cases i with
          | zero => simp at hf he; subst hf he; simp [drawAt]
          | succ i => simp only [List.getElem?_cons_succ] at hf he ⊢; exact c i f' e' hf he
      · simp only [applyNoise]
        by_cases h0 : e < 0
        · rw [if_pos h0]
          constructor
          · rintro ⟨_, h⟩; cases h
          · rintro ⟨_, h⟩; exact absurd (h e (by simp)) (not_le.2 h0)
        · rw [if_neg h0]
          have h0' := not_lt.1 h0
          constructor
          · rintro ⟨out, h⟩
            cases hr : applyNoise draw fs es (draw r).2 with
            | error x => rw [hr] at h; cases h
            | ok q =>
              obtain ⟨a, b⟩ := ih2.1 ⟨q, hr⟩
              refine ⟨by simp [a], ?_⟩
              intro x hx
              rcases List.mem_cons.1 hx with rfl | hx
              · exact h0'
              · exact b x hx
          · rintro ⟨a, b⟩
            obtain ⟨q, hq⟩ := ih2.2 ⟨by simpa using a, fun x hx => b x (List.mem_cons_of_mem _ hx)⟩
            rw [hq]
            exact ⟨_, rfl⟩

/-- The hypotheses are met by an ordinary observation. -/
noncomputable def sampleArgs : NoiseArgs :=
  { exptime := 30, count := 2, psf := 10, sky := 100, zp := 3, readout := .num 8, dark := 0.2 }

theorem sample_physical : Physical 500 sampleArgs := by
  constructor <;> norm_num [sampleArgs]

example : ∃ e, poissonStd 500 sampleArgs = some e ∧ 0 ≤ e :=
  let ⟨e, h1, h2, _⟩ := C42_formula sample_physical rfl
  ⟨e, h1, h2⟩

/-- C42 fails for a readout noise given as a function: the documented noise per pixel and exposure is not
multiplied by the number of pixels and of exposures, so the error does not grow with them. -/
theorem C42_callable_readout_counterexample (x flux : ℝ) (a : NoiseArgs) (hs : a.sky = 0) (hd : a.dark = 0) (n p : ℝ) :
    poissonStd flux { a with readout := .func fun _ => x, count := n, psf := p } =
      poissonStd flux { a with readout := .func fun _ => x } := by
  unfold poissonStd totalVariance readoutVariance
  simp [hs, hd]

/-- C42 fails for negative fluxes: in every observation there are fluxes, all negative, for which the error is
not a number. -/
theorem C42_negative_flux_counterexample (a : NoiseArgs) (hz : 0 < a.zp) (hs : 0 ≤ totalVariance 0 a) :
    ∃ flux, flux < 0 ∧ poissonStd flux a = none := by
  refine ⟨-(totalVariance 0 a + 1) * a.zp, by nlinarith, ?_⟩
  have h : totalVariance (-(totalVariance 0 a + 1) * a.zp) a = -1 := by
    have h0 : totalVariance 0 a = a.sky * a.psf + readoutVariance a + a.dark * a.exptime * a.psf := by
      unfold totalVariance; simp
    have : totalVariance (-(totalVariance 0 a + 1) * a.zp) a = -(totalVariance 0 a + 1) * a.zp / a.zp +
        (a.sky * a.psf + readoutVariance a + a.dark * a.exptime * a.psf) := by
      rw [totalVariance]; ring
    rw [this, mul_div_cancel_right₀ _ hz.ne', ← h0]
    ring
  unfold poissonStd
  rw [if_neg hz.ne', h]
  norm_num

/-! ## C43 -/

theorem mag2flux_pos (m : ℝ) : 0 < mag2flux m := rpow_pos_of_pos (by norm_num) _

theorem logb_mag2flux (m : ℝ) : logb 10 (mag2flux m) = -0.4 * (m - magAbZp) :=
  logb_rpow (by norm_num) (by norm_num)

/-- C43. The two conversions are mutually inverse: every magnitude comes back, every positive flux comes back. A
flux that is not positive has no magnitude. -/
theorem C43_inverse : (∀ m, flux2mag (mag2flux m) = some m) ∧ (∀ f, 0 < f → ∃ m, flux2mag f = some m ∧ mag2flux m = f) ∧
    ∀ f, f ≤ 0 → flux2mag f = none := by
  refine ⟨?_, ?_, ?_⟩
  · intro m
    unfold flux2mag
    rw [if_pos (mag2flux_pos m), logb_mag2flux]
    congr 1; ring
  · intro f hf
    refine ⟨_, by unfold flux2mag; rw [if_pos hf], ?_⟩
    unfold mag2flux
    rw [show -0.4 * (magAbZp - 2.5 * logb 10 f - magAbZp) = logb 10 f by ring]
    exact rpow_logb (by norm_num) (by norm_num) hf
  · intro f hf
    unfold flux2mag
    rw [if_neg (not_lt.2 hf)]

/-- C43. Both conversions are strictly decreasing. -/
theorem C43_decreasing : (∀ m m', m < m' ↔ mag2flux m' < mag2flux m) ∧
    ∀ f f' a b, flux2mag f = some a → flux2mag f' = some b → (f < f' ↔ b < a) := by
  have h1 : ∀ m m', m < m' ↔ mag2flux m' < mag2flux m := by
    intro m m'
    unfold mag2flux
    rw [rpow_lt_rpow_left_iff (by norm_num)]
    constructor <;> intro h <;> linarith
  refine ⟨h1, ?_⟩
  intro f f' a b ha hb
  have inv : ∀ f a, flux2mag f = some a → mag2flux a = f := by
    intro f a h
    by_cases hf : 0 < f
    · obtain ⟨m, e1, e2⟩ := C43_inverse.2.1 f hf
      rw [h] at e1; cases e1; exact e2
    · rw [C43_inverse.2.2 f (not_lt.1 hf)] at h; cases h
  rw [← inv f a ha, ← inv f' b hb, ← h1]

/-- C43. Five magnitudes are a factor of one hundred; the magnitude 8.9 is one Jansky (10^9 nJy). -/
theorem C43_scale : (∀ m, mag2flux m = 100 * mag2flux (m + 5)) ∧ mag2flux 8.9 = 10 ^ 9 := by
  constructor
  · intro m
    unfold mag2flux
    rw [show -0.4 * (m - magAbZp) = 2 + -0.4 * (m + 5 - magAbZp) by ring, rpow_add (by norm_num)]
    norm_num
  · unfold mag2flux magAbZp
    rw [show -0.4 * ((8.9 : ℝ) - (8.9 + 2.5 * 9)) = ((9 : ℕ) : ℝ) by norm_num, rpow_natCast]

example : ∃ m, flux2mag 3 = some m ∧ mag2flux m = 3 := C43_inverse.2.1 3 (by norm_num)

end LCL.PhotometryProps
