import Verif.Spec.Units
import Mathlib.Tactic.FieldSimp
import Mathlib.Tactic.Ring
import Mathlib.Tactic.Linarith
import Mathlib.Tactic.Positivity
import Mathlib.Tactic.Abel

/-!
# Properties C52 (spectral unit conversions) and C71 (detection efficiencies)
-/

namespace LCL.UnitProps
open LCL LCL.UnitSpec LCL.NArr Real

theorem bshape_self (s : List Nat) : bshape s s = some s := by
  induction s with
  | nil => rfl
  | cons a s ih => simp [bshape, ih]

theorem bshape_nil (s : List Nat) : bshape s [] = some s := by cases s <;> rfl

theorem bidx_valid : ∀ {s i : List Nat}, Valid s i → bidx s i = i
  | [], [], _ => rfl
  | [], _ :: _, h => h.elim
  | _ :: _, [], h => h.elim
  | n :: s, i :: is, h => by
    obtain ⟨h1, h2⟩ := h
    simp only [bidx, bidx_valid h2]
    by_cases hn : n = 1
    · rw [if_pos hn]; congr 1; omega
    · rw [if_neg hn]

/-- The alignment of wavelengths with fluxes is the intended one. -/
theorem wave_entry {flux w : NArr} {g : List Nat → ℝ} (h : WaveFor flux w g) :
    bshape flux.shape (alignWaves flux w).shape = some flux.shape ∧
    ∀ i, Valid flux.shape i → (alignWaves flux w).get (bidx (alignWaves flux w).shape i) = g i := by
  cases h with
  | scalar hs =>
    have ha : alignWaves flux w = w := by unfold alignWaves; rw [if_neg (by simp [hs])]
    rw [ha, hs]
    exact ⟨bshape_nil _, fun i _ => rfl⟩
  | full hs =>
    have ha : alignWaves flux w = w := by
      unfold alignWaves
      rw [if_neg]
      rw [hs]
      omega
    rw [ha, hs]
    exact ⟨bshape_self _, fun i hi => by rw [bidx_valid hi]⟩
  | @row n s hf hs =>
    cases s with
    | nil =>
      have ha : alignWaves flux w = w := by unfold alignWaves; rw [if_neg (by simp [hf])]
      rw [ha, hs, hf]
      refine ⟨bshape_self _, ?_⟩
      intro i hi
      rw [bidx_valid hi]
      match i, hi with
      | [k], _ => rfl
    | cons m s =>
      have ha : alignWaves flux w = w.newAxis := by unfold alignWaves; rw [if_pos (by simp [hf, hs])]
      have hsh : w.newAxis.shape = [n, 1] := by simp [newAxis, hs]
      rw [ha, hsh, hf]
      refine ⟨by by_cases hm : m = 1 <;> simp [bshape, bshape_nil, hm], ?_⟩
      intro i hi
      match i, hi with
      | k :: j :: is, hi =>
        have hk : (if n = 1 then 0 else k) = k := by
          by_cases hn : n = 1
          · rw [if_pos hn]; have := hi.1; omega
          · rw [if_neg hn]
        simp [bidx, newAxis, hs, hk]

theorem of_shape {flux flux' w : NArr} {g : List Nat → ℝ} (h : WaveFor flux w g) (hs : flux'.shape = flux.shape) :
    WaveFor flux' w g := by
  cases h with
  | scalar h => exact .scalar h
  | row hf h => exact .row (hs.trans hf) h
  | full h => exact .full (h.trans hs.symm)

theorem flam_run {flux w : NArr} {g : List Nat → ℝ} {wave flam fnu : AUnit} (hw : WaveFor flux w g) (hu : GoodUnits wave flam fnu) :
    ∃ r, flamToFnu flux w wave flam fnu = .ok r ∧ r.shape = flux.shape ∧ ∀ i, Valid flux.shape i →
      r.get i = flam.scale * wave.scale * wave.scale / 1 / fnu.scale * (flux.get i * g i ^ 2 / lightSpeed) := by
  obtain ⟨hb, he⟩ := wave_entry hw
  have hd : (((flam.mul wave).mul wave).div AUnit.metrePerSecond).dim = fnu.dim := by
    simp [AUnit.mul, AUnit.div, AUnit.metrePerSecond, hu.wave.1, hu.flam.1, hu.fnu.1]
  unfold flamToFnu NArr.zip
  rw [hb]
  dsimp only [bulkConvert, AUnit.convert]
  rw [if_pos hd]
  refine ⟨_, rfl, rfl, ?_⟩
  intro i hi
  simp only [NArr.map]
  rw [he i hi, bidx_valid hi]
  rfl

theorem fnu_run {flux w : NArr} {g : List Nat → ℝ} {wave flam fnu : AUnit} (hw : WaveFor flux w g) (hu : GoodUnits wave flam fnu) :
    ∃ r, fnuToFlam flux w wave flam fnu = .ok r ∧ r.shape = flux.shape ∧ ∀ i, Valid flux.shape i →
      r.get i = fnu.scale * 1 / (wave.scale * wave.scale) / flam.scale * (flux.get i * lightSpeed / g i ^ 2) := by
  obtain ⟨hb, he⟩ := wave_entry hw
  have hd : ((fnu.mul AUnit.metrePerSecond).div (wave.mul wave)).dim = flam.dim := by
    simp [AUnit.mul, AUnit.div, AUnit.metrePerSecond, hu.wave.1, hu.flam.1, hu.fnu.1]
  unfold fnuToFlam NArr.zip
  rw [hb]
  dsimp only [bulkConvert, AUnit.convert]
  rw [if_pos hd]
  refine ⟨_, rfl, rfl, ?_⟩
  intro i hi
  simp only [NArr.map]
  rw [he i hi, bidx_valid hi]
  rfl

/-- C52. For fluxes of any shape with wavelengths along their last axis (or a single wavelength, or one per entry),
both conversions succeed, keep the shape, and relate every entry to its own wavelength by `F_nu = F_lambda
lambda^2 / c`, all quantities in SI units (value times scale). -/
theorem C52_physical {flux w : NArr} {g : List Nat → ℝ} {wave flam fnu : AUnit} (hw : WaveFor flux w g) (hu : GoodUnits wave flam fnu) :
    (∃ r, flamToFnu flux w wave flam fnu = .ok r ∧ r.shape = flux.shape ∧ ∀ i, Valid flux.shape i →
      r.get i * fnu.scale = (flux.get i * flam.scale) * (g i * wave.scale) ^ 2 / 299792458) ∧
    ((∀ i, Valid flux.shape i → g i ≠ 0) → ∃ r, fnuToFlam flux w wave flam fnu = .ok r ∧ r.shape = flux.shape ∧
      ∀ i, Valid flux.shape i → flux.get i * fnu.scale = (r.get i * flam.scale) * (g i * wave.scale) ^ 2 / 299792458) := by
  have h1 := hu.wave.2.ne'
  have h2 := hu.flam.2.ne'
  have h3 := hu.fnu.2.ne'
  constructor
  · obtain ⟨r, hr, hs, he⟩ := flam_run hw hu
    refine ⟨r, hr, hs, ?_⟩
    intro i hi
    rw [he i hi, lightSpeed]
    field_simp
  · intro hg
    obtain ⟨r, hr, hs, he⟩ := fnu_run hw hu
    refine ⟨r, hr, hs, ?_⟩
    intro i hi
    rw [he i hi, lightSpeed]
    have := hg i hi
    field_simp

/-- C52. The conversions undo each other, in both orders, on every array of fluxes at non-zero wavelengths. -/
theorem C52_inverse {flux w : NArr} {g : List Nat → ℝ} {wave flam fnu : AUnit} (hw : WaveFor flux w g) (hu : GoodUnits wave flam fnu)
    (hg : ∀ i, Valid flux.shape i → g i ≠ 0) :
    (∃ r s, flamToFnu flux w wave flam fnu = .ok r ∧ fnuToFlam r w wave flam fnu = .ok s ∧ Same s flux) ∧
    (∃ r s, fnuToFlam flux w wave flam fnu = .ok r ∧ flamToFnu r w wave flam fnu = .ok s ∧ Same s flux) := by
  have h1 := hu.wave.2.ne'
  have h2 := hu.flam.2.ne'
  have h3 := hu.fnu.2.ne'
  constructor
  · obtain ⟨r, hr, hs, he⟩ := flam_run hw hu
    obtain ⟨s, hr', hs', he'⟩ := fnu_run (of_shape hw hs) hu
    refine ⟨r, s, hr, hr', hs'.trans hs, ?_⟩
    intro i hi
    rw [hs', hs] at hi
    rw [he' i (by rw [hs]; exact hi), he i hi, lightSpeed]
    have := hg i hi
    field_simp
  · obtain ⟨r, hr, hs, he⟩ := fnu_run hw hu
    obtain ⟨s, hr', hs', he'⟩ := flam_run (of_shape hw hs) hu
    refine ⟨r, s, hr, hr', hs'.trans hs, ?_⟩
    intro i hi
    rw [hs', hs] at hi
    rw [he' i (by rw [hs]; exact hi), he i hi, lightSpeed]
    have := hg i hi
    field_simp

/-- C52: both conversions are linear in the fluxes. -/
theorem C52_linear {x y z w : NArr} {g : List Nat → ℝ} {wave flam fnu : AUnit} {a b : ℝ} (hw : WaveFor x w g)
    (hy : y.shape = x.shape) (hz : z.shape = x.shape) (hu : GoodUnits wave flam fnu)
    (h : ∀ i, Valid x.shape i → z.get i = a * x.get i + b * y.get i) :
    (∃ rx ry rz, flamToFnu x w wave flam fnu = .ok rx ∧ flamToFnu y w wave flam fnu = .ok ry ∧ flamToFnu z w wave flam fnu = .ok rz ∧
      ∀ i, Valid x.shape i → rz.get i = a * rx.get i + b * ry.get i) ∧
    (∃ rx ry rz, fnuToFlam x w wave flam fnu = .ok rx ∧ fnuToFlam y w wave flam fnu = .ok ry ∧ fnuToFlam z w wave flam fnu = .ok rz ∧
      ∀ i, Valid x.shape i → rz.get i = a * rx.get i + b * ry.get i) := by
  constructor
  · obtain ⟨rx, hx, _, ex⟩ := flam_run hw hu
    obtain ⟨ry, hy', _, ey⟩ := flam_run (of_shape hw hy) hu
    obtain ⟨rz, hz', _, ez⟩ := flam_run (of_shape hw hz) hu
    refine ⟨rx, ry, rz, hx, hy', hz', ?_⟩
    intro i hi
    rw [ex i hi, ey i (by rw [hy]; exact hi), ez i (by rw [hz]; exact hi), h i hi]
    ring
  · obtain ⟨rx, hx, _, ex⟩ := fnu_run hw hu
    obtain ⟨ry, hy', _, ey⟩ := fnu_run (of_shape hw hy) hu
    obtain ⟨rz, hz', _, ez⟩ := fnu_run (of_shape hw hz) hu
    refine ⟨rx, ry, rz, hx, hy', hz', ?_⟩
    intro i hi
    rw [ex i hi, ey i (by rw [hy]; exact hi), ez i (by rw [hz]; exact hi), h i hi]
    ring

/-- C52: a list of wavelengths of another length than the last axis of the fluxes raises ValueError (neither length
being one), and so do units of the wrong dimension. -/
theorem C52_rejects {flux w : NArr} (wave flam fnu : AUnit) :
    (∀ n m s, flux.shape = n :: s → w.shape = [m] → n ≠ m → n ≠ 1 → m ≠ 1 →
      flamToFnu flux w wave flam fnu = .error .valueError ∧ fnuToFlam flux w wave flam fnu = .error .valueError) ∧
    (∀ g, WaveFor flux w g → flam.dim + wave.dim + wave.dim ≠ fnu.dim + (1, 0, -1) →
      flamToFnu flux w wave flam fnu = .error .valueError ∧ fnuToFlam flux w wave flam fnu = .error .valueError) := by
  constructor
  · intro n m s hf hm h1 h2 h3
    have hb : bshape flux.shape (alignWaves flux w).shape = none := by
      unfold alignWaves
      split
      · rw [show w.newAxis.shape = [m, 1] by simp [newAxis, hm], hf]
        cases s with
        | nil => simp [bshape, h1, h2, h3]
        | cons k s => by_cases hk : k = 1 <;> simp [bshape, bshape_nil, h1, h2, h3, hk]
      · rw [hm, hf]
        simp [bshape, bshape_nil, h1, h2, h3]
    constructor
    · unfold flamToFnu NArr.zip; rw [hb]
    · unfold fnuToFlam NArr.zip; rw [hb]
  · intro g hw hd
    obtain ⟨hb, _⟩ := wave_entry hw
    constructor
    · unfold flamToFnu NArr.zip
      rw [hb]
      dsimp only [bulkConvert, AUnit.convert]
      rw [if_neg]
      intro h
      apply hd
      simp only [AUnit.mul, AUnit.div, AUnit.metrePerSecond] at h
      rw [← h]
      abel
    · unfold fnuToFlam NArr.zip
      rw [hb]
      dsimp only [bulkConvert, AUnit.convert]
      rw [if_neg]
      intro h
      apply hd
      simp only [AUnit.mul, AUnit.div, AUnit.metrePerSecond] at h
      rw [← h]
      abel

/-- A grid of two times by three wavelengths in Angstrom, erg/s/cm^2/A and nJy meets the hypotheses. -/
example : ∃ (flux w : NArr) (g : List Nat → ℝ) (wave flam fnu : AUnit), flux.shape = [3, 2] ∧ WaveFor flux w g ∧
    GoodUnits wave flam fnu ∧ ∀ i, Valid flux.shape i → g i ≠ 0 :=
  ⟨⟨[3, 2], fun _ => 1⟩, ⟨[3], fun i => 4000 + i.headD 0⟩, _, ⟨1e-10, 1, 0, 0⟩, ⟨1e7, -1, 1, -3⟩, ⟨1e-35, 0, 1, -2⟩, rfl,
    .row rfl rfl, ⟨⟨rfl, by norm_num⟩, ⟨rfl, by norm_num⟩, ⟨rfl, by norm_num⟩⟩, fun i _ => by
      simp only [List.headD_cons]
      positivity⟩

/-! ### C71 -/

/-- C71. The photometric efficiency is 1 exactly for a signal to noise above 5, else 0. -/
theorem C71_photometric (snr : ℝ) : (photEff snr = 1 ↔ 5 < snr) ∧ (photEff snr = 0 ↔ snr ≤ 5) := by
  unfold photEff
  by_cases h : 5 < snr
  · rw [if_pos h]; simp [h, not_le.2 h]
  · rw [if_neg h]; simp [h, not_lt.1 h]

/-- C71. The spectroscopic efficiency is a probability strictly between 0 and 1, brighter sources are more likely,
and it is one half at magnitude `51.9 / 2.36`. -/
theorem C71_spectroscopic :
    (∀ m, 0 < specEff m ∧ specEff m < 1) ∧ (∀ m m', m < m' → specEff m' < specEff m) ∧ specEff (51.9 / 2.36) = 1 / 2 := by
  refine ⟨?_, ?_, ?_⟩
  · intro m
    have := exp_pos (2.36 * m - 51.9)
    unfold specEff
    rw [one_mul]
    exact ⟨by positivity, inv_lt_one_of_one_lt₀ (by linarith)⟩
  · intro m m' h
    unfold specEff
    rw [one_mul, one_mul]
    have h1 := exp_pos (2.36 * m - 51.9)
    have h2 : exp (2.36 * m - 51.9) < exp (2.36 * m' - 51.9) := exp_lt_exp.2 (by linarith)
    exact inv_strictAnti₀ (by linarith) (by linarith)
  · unfold specEff
    rw [show (2.36 : ℝ) * (51.9 / 2.36) - 51.9 = 0 by norm_num, exp_zero]
    norm_num

end LCL.UnitProps
