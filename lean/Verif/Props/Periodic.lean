import Verif.Model.Periodic
import Mathlib.Tactic.Positivity

/-!
# Properties C58 (periodic models repeat) and C73 (eclipsing binaries)
-/

namespace LCL.PeriodicProps
open LCL

/-- The second list of times is the first, each time shifted by a whole number of periods. -/
def Shifted (period : ℝ) (times times' : List ℝ) : Prop :=
  times'.length = times.length ∧ ∀ (i : Nat) t t', times[i]? = some t → times'[i]? = some t' → ∃ k : ℤ, t' = t + k * period

theorem phase_fract {t0 period t : ℝ} (hp : period ≠ 0) : phaseOf t0 period t = some (Int.fract ((t - t0) / period)) := by
  unfold phaseOf pyMod
  rw [if_neg hp]
  congr 1
  rw [Int.fract, sub_div, mul_div_cancel_left₀ _ hp]

theorem phase_shift {t0 period t : ℝ} (hp : period ≠ 0) (k : ℤ) : phaseOf t0 period (t + k * period) = phaseOf t0 period t := by
  rw [phase_fract hp, phase_fract hp]
  have : (t + k * period - t0) / period = (t - t0) / period + k := by field_simp; ring
  rw [this, Int.fract_add_intCast]

/-- C58. The phase lies in `[0, 1)`, for positive and negative periods. -/
theorem C58_phase {t0 period t : ℝ} (hp : period ≠ 0) : ∃ φ, phaseOf t0 period t = some φ ∧ 0 ≤ φ ∧ φ < 1 ∧ ∃ k : ℤ, t = t0 + (φ + k) * period := by
  refine ⟨_, phase_fract hp, Int.fract_nonneg _, Int.fract_lt_one _, ⌊(t - t0) / period⌋, ?_⟩
  rw [Int.fract, sub_add_cancel]
  field_simp
  ring

theorem map_phase {t0 period : ℝ} (hp : period ≠ 0) {times times' : List ℝ} (h : Shifted period times times') :
    times'.map (phaseOf t0 period) = times.map (phaseOf t0 period) := by
  apply List.ext_getElem?
  intro i
  rw [List.getElem?_map, List.getElem?_map]
  cases h1 : times[i]? with
  | none =>
    have : times'[i]? = none := by rw [List.getElem?_eq_none_iff] at h1 ⊢; rw [h.1]; exact h1
    rw [this]
  | some t =>
    have hi := (List.getElem?_eq_some_iff.1 h1).1
    have h2 : times'[i]? = some (times'[i]'(by rw [h.1]; exact hi)) := List.getElem?_eq_getElem _
    obtain ⟨k, hk⟩ := h.2 i t _ h1 h2
    rw [h2, hk]
    simp only [Option.map_some, phase_shift hp]

variable {V W R : Type}

/-- C58. A periodic model computes the same flux densities at times that differ by whole periods, each by its own
number of periods, whatever the subclass does with the phases. -/
theorem C58_repeats (node : Name) (evalPhases : W → SState ℝ → List (Option ℝ) → List ℝ → Except Err (Mat ℝ)) (kw : W) (st : SState ℝ)
    (waves : List ℝ) {p : Params ℝ} {period : ℝ} (hl : st.get? node = some p) (hper : p.get? "period".toList = some (.num period)) (hp : period ≠ 0)
    {times times' : List ℝ} (h : Shifted period times times') :
    periodicSed node evalPhases kw st times' waves = periodicSed node evalPhases kw st times waves := by
  unfold periodicSed localParams numParam
  rw [hl]
  dsimp only
  rw [hper]
  dsimp only
  cases p.get? t0Key with
  | none => rfl
  | some v => cases v with
    | none => rfl
    | str _ => rfl
    | num t0 => dsimp only; rw [map_phase hp h]

/-- C58 for the observer: the flux of a periodic source without effects repeats with its period stretched by
`1 + z`, or with its period if the model is not redshifted. -/
theorem C58_observer (m : SEDModel V W R ℝ) (noKw kw : W) (evalPhases : W → SState ℝ → List (Option ℝ) → List ℝ → Except Err (Mat ℝ))
    (hm : m.computeSed = periodicSed m.nodeString evalPhases) (he1 : m.restEffects = []) (he2 : m.obsEffects = [])
    (st : SState ℝ) (r : R) (waves : List ℝ) {p : Params ℝ} {period z : ℝ} (hl : st.get? m.nodeString = some p)
    (hper : p.get? "period".toList = some (.num period)) (hz : p.get? redshiftKey = some (.num z)) (hz1 : 1 + z ≠ 0) (hp : period ≠ 0)
    {times times' : List ℝ} (h : Shifted (if m.applyRedshift then period * (1 + z) else period) times times') :
    m.evaluateSingle noKw times' waves st r kw = m.evaluateSingle noKw times waves st r kw := by
  have sed : ∀ {a b : List ℝ}, Shifted period a b → ∀ ws, m.sedExtrapolated noKw b ws st kw = m.sedExtrapolated noKw a ws st kw := by
    intro a b hab ws
    have hc : ∀ kw ws, m.computeSed kw st b ws = m.computeSed kw st a ws := by
      intro kw ws; rw [hm]; exact C58_repeats _ _ kw st ws hl hper hp hab
    have hlen : ∀ row : List ℝ, (b.map fun _ => row) = a.map fun _ => row := by
      intro row
      rw [List.map_const', List.map_const', hab.1]
    unfold SEDModel.sedExtrapolated SEDModel.extrapolated
    simp only [hc, hlen]
  unfold SEDModel.evaluateSingle
  have hlp : localParams st m.nodeString = .ok p := by unfold localParams; rw [hl]
  rw [hlp, he1, he2]
  dsimp only
  cases hr : redshiftOf m.applyRedshift p with
  | error e => rfl
  | ok zs =>
    dsimp only
    have hsh : Shifted period (restTimesOf zs times) (restTimesOf zs times') := by
      unfold redshiftOf at hr
      by_cases ha : m.applyRedshift = true
      · rw [if_pos ha] at hr h
        rw [hz] at hr
        dsimp only at hr
        by_cases h0 : z = 0
        · rw [if_pos h0] at hr
          injection hr with hr
          subst hr; subst h0
          rw [add_zero, mul_one] at h
          exact h
        · rw [if_neg h0] at hr
          have : ∃ t0, zs = some (z, t0) := by
            split at hr
            · cases hr
            · cases hr
            · injection hr with hr; exact ⟨_, hr.symm⟩
            · cases hr
          obtain ⟨t0, rfl⟩ := this
          unfold restTimesOf
          refine ⟨by simp [h.1], ?_⟩
          intro i t t' ht ht'
          simp only [List.getElem?_map, Option.map_eq_some_iff] at ht ht'
          obtain ⟨u, hu, rfl⟩ := ht
          obtain ⟨u', hu', rfl⟩ := ht'
          obtain ⟨k, hk⟩ := h.2 i u u' hu hu'
          refine ⟨k, ?_⟩
          rw [hk]
          unfold obsToRestTime
          field_simp
          ring
      · rw [if_neg ha] at hr
        injection hr with hr
        subst hr
        rw [if_neg ha] at h
        exact h
    rw [sed hsh]
    cases m.sedExtrapolated noKw (restTimesOf zs times) (restWavesOf zs waves) st kw with
    | error e => rfl
    | ok a => rfl

example : phaseOf 0 2 (-1 / 2) = some (3 / 4) := by
  rw [phase_fract (by norm_num)]
  congr 1
  rw [Int.fract_eq_iff]
  exact ⟨by norm_num, by norm_num, ⟨-1, by norm_num⟩⟩

example : Shifted 2 [0, 1, 5] [4, -1, 5] := by
  refine ⟨rfl, ?_⟩
  intro i t t' h1 h2
  match i with
  | 0 => simp at h1 h2; exact ⟨2, by rw [← h1, ← h2]; norm_num⟩
  | 1 => simp at h1 h2; exact ⟨-1, by rw [← h1, ← h2]; norm_num⟩
  | 2 => simp at h1 h2; exact ⟨0, by rw [← h1, ← h2]; norm_num⟩
  | n + 3 => simp at h1

/-! ### Eclipsing binaries -/

theorem overlap_nonneg (d r1 r2 : ℝ) : 0 ≤ overlapArea d r1 r2 := by
  unfold overlapArea
  split
  · exact le_refl _
  split
  · positivity
  split
  · assumption
  · exact le_refl _

theorem clip0_le {a b : ℝ} (hb : 0 ≤ b) (h : a ≤ b) : clip0 a ≤ b := by
  unfold clip0; split
  · exact h
  · exact hb

theorem clip0_nonneg (a : ℝ) : 0 ≤ clip0 a := by
  unfold clip0; split
  · assumption
  · exact le_refl _

theorem clip0_of_nonneg {a : ℝ} (h : 0 ≤ a) : clip0 a = a := by unfold clip0; rw [if_pos h]

theorem centerDistance_symm (phase inc : ℝ) : centerDistance (1 - phase) inc = centerDistance phase inc := by
  unfold centerDistance
  have h1 : Real.cos (2 * Real.pi * (1 - phase)) = Real.cos (2 * Real.pi * phase) := by
    rw [show 2 * Real.pi * (1 - phase) = 2 * Real.pi - 2 * Real.pi * phase by ring, Real.cos_two_pi_sub]
  have h2 : Real.sin (2 * Real.pi * (1 - phase)) = -Real.sin (2 * Real.pi * phase) := by
    rw [show 2 * Real.pi * (1 - phase) = 2 * Real.pi - 2 * Real.pi * phase by ring, Real.sin_two_pi_sub]
  rw [h1, h2, neg_sq]

/-- The law of sines for two circles that meet. -/
theorem lens_symm {d r1 r2 : ℝ} (hd : 0 < d) (h1 : 0 < r1) (h2 : 0 < r2) (hlo : |r1 - r2| < d) (hhi : d < r1 + r2) :
    lensArea d r1 r2 = lensArea d r2 r1 := by
  have key : r1 * Real.sin (Real.arccos ((d ^ 2 + r1 ^ 2 - r2 ^ 2) / (2 * r1 * d))) = r2 * Real.sin (Real.arccos ((d ^ 2 + r2 ^ 2 - r1 ^ 2) / (2 * r2 * d))) := by
    rw [Real.sin_arccos, Real.sin_arccos]
    have e : ∀ r x : ℝ, 0 < r → r * Real.sqrt x = Real.sqrt (r ^ 2 * x) := by
      intro r x hr
      rw [Real.sqrt_mul (by positivity), Real.sqrt_sq hr.le]
    rw [e _ _ h1, e _ _ h2]
    congr 1
    field_simp
    ring
  unfold lensArea
  have : r1 * d * Real.sin (Real.arccos ((d ^ 2 + r1 ^ 2 - r2 ^ 2) / (2 * r1 * d))) = r2 * d * Real.sin (Real.arccos ((d ^ 2 + r2 ^ 2 - r1 ^ 2) / (2 * r2 * d))) := by
    linear_combination d * key
  rw [this]
  ring

/-- C73. The area of the overlap of two discs: zero when they are apart, the smaller disc when it lies inside the
other, never negative, and the same when the discs are exchanged. -/
theorem C73_overlap {d r1 r2 : ℝ} (h1 : 0 < r1) (h2 : 0 < r2) :
    (r1 + r2 ≤ d → overlapArea d r1 r2 = 0) ∧ (d ≤ |r1 - r2| → overlapArea d r1 r2 = Real.pi * (min r1 r2) ^ 2) ∧
    0 ≤ overlapArea d r1 r2 ∧ overlapArea d r1 r2 = overlapArea d r2 r1 := by
  refine ⟨fun h => by unfold overlapArea; rw [if_pos h], ?_, overlap_nonneg _ _ _, ?_⟩
  · intro h
    have : |r1 - r2| < r1 + r2 := by rw [abs_lt]; constructor <;> linarith
    unfold overlapArea
    rw [if_neg (not_le.2 (lt_of_le_of_lt h this)), if_pos h]
  · unfold overlapArea
    rw [add_comm r2 r1, abs_sub_comm r2 r1, min_comm r2 r1]
    by_cases ha : d ≥ r1 + r2
    · rw [if_pos ha, if_pos ha]
    · rw [if_neg ha, if_neg ha]
      by_cases hb : d ≤ |r1 - r2|
      · rw [if_pos hb, if_pos hb]
      · rw [if_neg hb, if_neg hb]
        have hd : 0 < d := lt_of_le_of_lt (abs_nonneg _) (not_le.1 hb)
        rw [lens_symm hd h1 h2 (not_le.1 hb) (not_le.1 ha)]

/-- C73. The brightness of an eclipsing binary is never negative and never above that of the two stars together; it is
exactly that when their discs do not overlap; and the eclipses are symmetric in time. -/
theorem C73_brightness (b : Binary) {lum1 lum2 : ℝ} (hr1 : 0 < b.r1) (hr2 : 0 < b.r2) (hl1 : 0 ≤ lum1) (hl2 : 0 ≤ lum2) (phase : ℝ) :
    0 ≤ binaryLum b lum1 lum2 phase ∧ binaryLum b lum1 lum2 phase ≤ lum1 + lum2 ∧
    (b.r1 + b.r2 ≤ b.semiaxis * centerDistance phase b.inclination → binaryLum b lum1 lum2 phase = lum1 + lum2) ∧
    binaryLum b lum1 lum2 (1 - phase) = binaryLum b lum1 lum2 phase := by
  have hov := overlap_nonneg (b.semiaxis * centerDistance phase b.inclination) b.r1 b.r2
  have ratio : ∀ (r : ℝ) (c : Prop) [Decidable c], 0 < r → 0 ≤ (if c then overlapArea (b.semiaxis * centerDistance phase b.inclination) b.r1 b.r2 / (Real.pi * r ^ 2) else 0) := by
    intro r c _ hr
    split
    · exact div_nonneg hov (by positivity)
    · exact le_refl _
  refine ⟨add_nonneg (clip0_nonneg _) (clip0_nonneg _), ?_, ?_, ?_⟩
  · unfold binaryLum
    dsimp only
    apply add_le_add
    · apply clip0_le hl1
      have := mul_nonneg hl1 (ratio b.r1 (phase < 1 / 4 ∨ phase > 3 / 4) hr1)
      linarith
    · apply clip0_le hl2
      have := mul_nonneg hl2 (ratio b.r2 (¬ (phase < 1 / 4 ∨ phase > 3 / 4)) hr2)
      linarith
  · intro h
    unfold binaryLum
    dsimp only
    rw [(C73_overlap hr1 hr2).1 h]
    simp only [zero_div, ite_self, sub_zero, mul_one]
    rw [clip0_of_nonneg hl1, clip0_of_nonneg hl2]
  · unfold binaryLum
    rw [centerDistance_symm]
    have e : (1 - phase < 1 / 4 ∨ 1 - phase > 3 / 4) ↔ (phase < 1 / 4 ∨ phase > 3 / 4) := by
      constructor
      · rintro (h | h)
        · right; linarith
        · left; linarith
      · rintro (h | h)
        · right; linarith
        · left; linarith
    simp only [e]

/-- C73. In a total eclipse only the nearer star is seen: the secondary around phase 0, when its disc covers the primary,
the primary around phase one half, when its disc covers the secondary. -/
theorem C73_total (b : Binary) {lum1 lum2 phase : ℝ} (hr1 : 0 < b.r1) (hr2 : 0 < b.r2) (hl1 : 0 ≤ lum1) (hl2 : 0 ≤ lum2) :
    (0 ≤ b.semiaxis → b.semiaxis * centerDistance phase b.inclination ≤ b.r2 - b.r1 → (phase < 1 / 4 ∨ 3 / 4 < phase) → binaryLum b lum1 lum2 phase = lum2) ∧
    (b.semiaxis * centerDistance phase b.inclination ≤ b.r1 - b.r2 → 1 / 4 ≤ phase → phase ≤ 3 / 4 →
      0 ≤ b.semiaxis → binaryLum b lum1 lum2 phase = lum1) ∧
    (b.semiaxis * centerDistance phase b.inclination ≤ b.r1 - b.r2 → (phase < 1 / 4 ∨ 3 / 4 < phase) →
      0 ≤ b.semiaxis → binaryLum b lum1 lum2 phase = lum1 * (1 - b.r2 ^ 2 / b.r1 ^ 2) + lum2) := by
  refine ⟨?_, ?_, ?_⟩
  · intro hs h hp
    have hov := (C73_overlap (d := b.semiaxis * centerDistance phase b.inclination) hr1 hr2).2.1 (le_trans h (by rw [abs_sub_comm]; exact le_abs_self _))
    by_cases hlt : b.r1 ≤ b.r2
    · rw [min_eq_left hlt] at hov
      unfold binaryLum
      dsimp only
      rw [hov, if_pos hp, if_neg (not_not.2 hp), div_self (by positivity), sub_self, mul_zero, sub_zero, mul_one, clip0_of_nonneg (le_refl 0),
        clip0_of_nonneg hl2, zero_add]
    · exfalso
      have hd : 0 ≤ centerDistance phase b.inclination := Real.sqrt_nonneg _
      have := mul_nonneg hs hd
      linarith [not_le.1 hlt]
  · intro h hp1 hp2 hs
    have h0 := mul_nonneg hs (Real.sqrt_nonneg ((Real.cos (b.inclination * Real.pi / 180) * Real.cos (2 * Real.pi * phase)) ^ 2 + Real.sin (2 * Real.pi * phase) ^ 2))
    change 0 ≤ b.semiaxis * centerDistance phase b.inclination at h0
    have hov := (C73_overlap (d := b.semiaxis * centerDistance phase b.inclination) hr1 hr2).2.1 (le_trans h (le_abs_self _))
    have hlt : b.r2 ≤ b.r1 := by linarith
    rw [min_eq_right hlt] at hov
    have hn : ¬ (phase < 1 / 4 ∨ phase > 3 / 4) := by rintro (h | h) <;> linarith
    unfold binaryLum
    dsimp only
    rw [hov, if_neg hn, if_pos hn, div_self (by positivity), sub_self, mul_zero, sub_zero, mul_one, clip0_of_nonneg (le_refl 0),
      clip0_of_nonneg hl1, add_zero]
  · intro h hp hs
    have h0 := mul_nonneg hs (Real.sqrt_nonneg ((Real.cos (b.inclination * Real.pi / 180) * Real.cos (2 * Real.pi * phase)) ^ 2 + Real.sin (2 * Real.pi * phase) ^ 2))
    change 0 ≤ b.semiaxis * centerDistance phase b.inclination at h0
    have hov := (C73_overlap (d := b.semiaxis * centerDistance phase b.inclination) hr1 hr2).2.1 (le_trans h (le_abs_self _))
    have hlt : b.r2 ≤ b.r1 := by linarith
    rw [min_eq_right hlt] at hov
    have e : Real.pi * b.r2 ^ 2 / (Real.pi * b.r1 ^ 2) = b.r2 ^ 2 / b.r1 ^ 2 := by
      rw [mul_div_mul_left _ _ Real.pi_ne_zero]
    unfold binaryLum
    dsimp only
    rw [hov, if_pos hp, if_neg (not_not.2 hp), e, sub_zero, mul_one, clip0_of_nonneg hl2, clip0_of_nonneg]
    apply mul_nonneg hl1
    rw [sub_nonneg, div_le_one (by positivity)]
    exact pow_le_pow_left₀ hr2.le hlt 2

/-- An orbit seen edge on: at phase 0 the discs are concentric and the larger secondary hides the primary; at a quarter
of the period they are apart. -/
example : binaryLum ⟨10, 90, 1, 2⟩ 5 3 0 = 3 ∧ binaryLum ⟨10, 90, 1, 2⟩ 5 3 (1 / 4) = 8 := by
  have c0 : centerDistance 0 90 = 0 := by
    unfold centerDistance
    rw [show (90 : ℝ) * Real.pi / 180 = Real.pi / 2 by ring, Real.cos_pi_div_two]
    simp
  have c1 : centerDistance (1 / 4) 90 = 1 := by
    unfold centerDistance
    rw [show (90 : ℝ) * Real.pi / 180 = Real.pi / 2 by ring, show 2 * Real.pi * (1 / 4) = Real.pi / 2 by ring, Real.cos_pi_div_two, Real.sin_pi_div_two]
    simp
  constructor
  · refine (C73_total ⟨10, 90, 1, 2⟩ (by norm_num) (by norm_num) (by norm_num) (by norm_num)).1 (by norm_num) ?_ (Or.inl (by norm_num))
    dsimp only; rw [c0]; norm_num
  · rw [(C73_brightness ⟨10, 90, 1, 2⟩ (by norm_num) (by norm_num) (by norm_num) (by norm_num) (1 / 4)).2.2.1 (by dsimp only; rw [c1]; norm_num)]
    norm_num

end LCL.PeriodicProps
