import Verif.Model.Agn
import Verif.Props.Drw
import Mathlib.Analysis.SpecialFunctions.Gamma.Basic
import Mathlib.Tactic.NormNum

/-!
# Properties C79 and C80: the AGN model
-/

namespace LCL.AgnProps
open LCL LCL.Agn LCL.DrwProps

/-! ## C79: derived parameters -/

/-- C79. The accretion rates and the luminosity are the Eddington values of the mass in solar masses, scaled by the Eddington ratio. -/
theorem C79_linear {k : Consts} (hk : k.Pos) (t0 mass edd i d : ℝ) :
    (params k t0 mass edd i d).critical = 1.4e18 * mass ∧ (params k t0 mass edd i d).accretion = 1.4e18 * mass * edd ∧
    (params k t0 mass edd i d).luminosity = 1.26e38 * mass * edd := by
  have := hk.mSun.ne'
  refine ⟨?_, ?_, ?_⟩
  · simp only [params, criticalAccretionRate, massGram]; norm_num; field_simp
  · simp only [params, criticalAccretionRate, massGram, accretionRate]; norm_num; left; field_simp
  · simp only [params, bolometricLuminosity, massGram]; norm_num; field_simp

/-- C79. The `i` magnitude: a luminosity larger by the factor `10 ^ n` is brighter by `2.5 n` magnitudes. -/
theorem C79_magnitude {lum : ℝ} (h : 0 < lum) (n : ℝ) : magI ((10 : ℝ) ^ n * lum) = magI lum - 2.5 * n := by
  unfold magI
  rw [Real.logb_mul (Real.rpow_pos_of_pos (by norm_num) n).ne' h.ne', Real.logb_rpow (by norm_num) (by norm_num)]
  ring

/-- C79. The reference values of the structure function and of the time scale at 4000 angstroms. -/
theorem C79_reference {k : Consts} (hk : k.Pos) :
    sfInf4000 k (-23) (1e9 * k.mSun) = (10 : ℝ) ^ (-0.476 : ℝ) ∧ tau4000 k (-23) (1e9 * k.mSun) = (10 : ℝ) ^ (2.597 : ℝ) := by
  have e : (1e9 * k.mSun) / (10 ^ 9 * k.mSun) = 1 := by
    have := hk.mSun.ne'
    field_simp; norm_num
  unfold sfInf4000 tau4000
  rw [e, Real.logb_one]
  constructor <;> congr 1 <;> norm_num

/-- C79. A heavier or fainter object has a larger structure function and a longer time scale. -/
theorem C79_monotone {k : Consts} (hk : k.Pos) {mag mag' mass mass' : ℝ} (hm : 0 < mass) (hmass : mass ≤ mass') (hmag : mag ≤ mag') :
    sfInf4000 k mag mass ≤ sfInf4000 k mag' mass' ∧ tau4000 k mag mass ≤ tau4000 k mag' mass' ∧
    (mass < mass' ∨ mag < mag' → sfInf4000 k mag mass < sfInf4000 k mag' mass' ∧ tau4000 k mag mass < tau4000 k mag' mass') := by
  have hp : 0 < 10 ^ 9 * k.mSun := by have := hk.mSun; positivity
  have hle : Real.logb 10 (mass / (10 ^ 9 * k.mSun)) ≤ Real.logb 10 (mass' / (10 ^ 9 * k.mSun)) :=
    Real.logb_le_logb_of_le (by norm_num) (by positivity) (by gcongr)
  unfold sfInf4000 tau4000
  refine ⟨Real.rpow_le_rpow_of_exponent_le (by norm_num) (by linarith), Real.rpow_le_rpow_of_exponent_le (by norm_num) (by linarith), ?_⟩
  intro hor
  have hlt : mass < mass' → Real.logb 10 (mass / (10 ^ 9 * k.mSun)) < Real.logb 10 (mass' / (10 ^ 9 * k.mSun)) :=
    fun hl => Real.logb_lt_logb (by norm_num) (by positivity) (by gcongr)
  constructor
  · apply Real.rpow_lt_rpow_of_exponent_lt (by norm_num)
    rcases hor with h | h
    · have := hlt h; linarith
    · linarith
  · apply Real.rpow_lt_rpow_of_exponent_lt (by norm_num)
    rcases hor with h | h
    · have := hlt h; linarith
    · linarith

/-- C79, what holds of the values at other wavelengths: they are proportional to the wavelength, with the factors `10 ^ -0.479`
and `10 ^ 0.17` at 4000 angstroms. What is missing: at 4000 angstroms they should be the 4000 angstrom parameters
(`C79_reference_wavelength_counterexample`), and the exponents should be powers of the ratio of the wavelengths. -/
theorem C79_wavelength_partial (s wave : ℝ) :
    sfInf s wave = s * (10 : ℝ) ^ (-0.479 : ℝ) * (wave / 4000e-8) ∧ tau s wave = s * (10 : ℝ) ^ (0.17 : ℝ) * (wave / 4000e-8) := by
  unfold sfInf tau
  constructor <;> ring

/-- C79 fails: at 4000 angstroms neither the structure function nor the time scale is the 4000 angstrom parameter, whatever its
value other than zero: the first is smaller than a half of it, the second is larger by more than a third. -/
theorem C79_reference_wavelength_counterexample {s : ℝ} (hs : 0 < s) : sfInf s 4000e-8 < s / 2 ∧ 4 / 3 * s < tau s 4000e-8 := by
  have e : (4000e-8 : ℝ) / 4000e-8 = 1 := by norm_num
  rw [(C79_wavelength_partial s _).1, (C79_wavelength_partial s _).2, e, mul_one, mul_one]
  constructor
  · have : (10 : ℝ) ^ (-0.479 : ℝ) < 1 / 2 := by
      have h1 : (10 : ℝ) ^ (-0.479 : ℝ) ≤ (10 : ℝ) ^ (-(1 / 3) : ℝ) := Real.rpow_le_rpow_of_exponent_le (by norm_num) (by norm_num)
      have h2 : (10 : ℝ) ^ (-(1 / 3) : ℝ) < 1 / 2 := by
        rw [Real.rpow_neg (by norm_num), show (1 / 2 : ℝ) = (2 : ℝ)⁻¹ by norm_num]
        apply inv_strictAnti₀ (by norm_num)
        have : (2 : ℝ) = (8 : ℝ) ^ (1 / 3 : ℝ) := by
          rw [show (8 : ℝ) = 2 ^ (3 : ℝ) by norm_num, ← Real.rpow_mul (by norm_num)]; norm_num
        rw [this]
        have := Real.rpow_lt_rpow (x := 8) (y := 10) (z := 1 / 3) (by norm_num) (by norm_num) (by norm_num)
        simpa using this
      linarith
    nlinarith
  · have : 4 / 3 < (10 : ℝ) ^ (0.17 : ℝ) := by
      have h1 : (10 : ℝ) ^ (1 / 6 : ℝ) ≤ (10 : ℝ) ^ (0.17 : ℝ) := Real.rpow_le_rpow_of_exponent_le (by norm_num) (by norm_num)
      have h2 : (4 / 3 : ℝ) < (10 : ℝ) ^ (1 / 6 : ℝ) := by
        have : (4 / 3 : ℝ) = ((4 / 3) ^ (6 : ℕ) : ℝ) ^ (1 / 6 : ℝ) := by
          rw [← Real.rpow_natCast, ← Real.rpow_mul (by norm_num)]; norm_num
        rw [this]
        exact Real.rpow_lt_rpow (by norm_num) (by norm_num) (by norm_num)
      linarith
    nlinarith

/-! ## C80: the flux -/

theorem integrableOn_integrand {a : ℝ} (ha : 0 < a) : MeasureTheory.IntegrableOn integrand (Set.Ioi a) := by
  have hg := (Real.GammaIntegral_convergent (s := 8 / 3) (by norm_num)).mono_set (Set.Ioi_subset_Ioi ha.le)
  have hc : 0 < 1 - Real.exp (-a) := by rw [sub_pos, Real.exp_lt_one_iff]; linarith
  refine MeasureTheory.Integrable.mono' (hg.const_mul (1 / (1 - Real.exp (-a)))) ?_ ?_
  · refine (ContinuousOn.aestronglyMeasurable ?_ measurableSet_Ioi)
    refine ContinuousOn.div ?_ ?_ ?_
    · exact fun x _ => (Real.continuousAt_rpow_const x _ (Or.inr (by norm_num))).continuousWithinAt
    · exact (Real.continuous_exp.sub continuous_const).continuousOn
    · intro x hx
      have : 1 < Real.exp x := Real.one_lt_exp_iff.2 (ha.trans hx)
      linarith
  · refine (MeasureTheory.ae_restrict_iff' measurableSet_Ioi).2 (Filter.Eventually.of_forall fun x hx => ?_)
    have hx0 : 0 < x := ha.trans hx
    have he : 1 < Real.exp x := Real.one_lt_exp_iff.2 hx0
    have hpow : 0 ≤ x ^ (5 / 3 : ℝ) := Real.rpow_nonneg hx0.le _
    have hn : 0 ≤ integrand x := div_nonneg hpow (by linarith)
    rw [Real.norm_of_nonneg hn]
    have e1 : Real.exp x - 1 = Real.exp x * (1 - Real.exp (-x)) := by
      rw [mul_sub, mul_one, ← Real.exp_add]; simp
    have h2 : 1 - Real.exp (-a) ≤ 1 - Real.exp (-x) := by
      have : Real.exp (-x) ≤ Real.exp (-a) := Real.exp_le_exp.2 (by linarith [Set.mem_Ioi.1 hx])
      linarith
    have e3 : (8 / 3 - 1 : ℝ) = 5 / 3 := by norm_num
    unfold integrand
    rw [e1, e3, div_le_iff₀ (mul_pos (Real.exp_pos x) (by linarith))]
    have e2 : Real.exp (-x) * Real.exp x = 1 := by rw [← Real.exp_add]; simp
    calc x ^ (5 / 3 : ℝ) = (Real.exp (-x) * Real.exp x) * x ^ (5 / 3 : ℝ) * ((1 - Real.exp (-a)) / (1 - Real.exp (-a))) := by
          rw [e2, div_self hc.ne']; ring
      _ ≤ (Real.exp (-x) * Real.exp x) * x ^ (5 / 3 : ℝ) * ((1 - Real.exp (-x)) / (1 - Real.exp (-a))) := by
          rw [e2]; gcongr
      _ = _ := by ring

theorem quad_pos {a : ℝ} (ha : 0 < a) : 0 < quad a := by
  unfold quad
  have hpos : ∀ x ∈ Set.Ioi a, 0 < integrand x := by
    intro x hx
    have hx0 : 0 < x := ha.trans hx
    have he : 1 < Real.exp x := Real.one_lt_exp_iff.2 hx0
    exact div_pos (Real.rpow_pos_of_pos hx0 _) (by linarith)
  rw [MeasureTheory.setIntegral_pos_iff_support_of_nonneg_ae ?_ (integrableOn_integrand ha)]
  · have : Function.support integrand ∩ Set.Ioi a = Set.Ioi a := by
      apply Set.inter_eq_right.2
      intro x hx
      exact (hpos x hx).ne'
    rw [this]
    simp
  · exact (MeasureTheory.ae_restrict_iff' measurableSet_Ioi).2 (Filter.Eventually.of_forall fun x hx => (hpos x hx).le)

/-- C80. The average flux is positive when the object is not seen edge on, and zero edge on; it falls with the square of the
distance and is proportional to the cosine of the inclination. -/
theorem C80_disk {k : Consts} (hk : k.Pos) {mdot nu rg i d mass : ℝ} (hm : 0 < mdot) (hn : 0 < nu) (hr : 0 < rg) (hd : 0 < d) (hM : 0 < mass) :
    (0 ≤ i → i < Real.pi / 2 → 0 < diskSed k mdot nu rg i d mass) ∧
    diskSed k mdot nu rg (Real.pi / 2) d mass = 0 ∧
    (∀ a : ℝ, 0 < a → diskSed k mdot nu rg i (a * d) mass = diskSed k mdot nu rg i d mass / a ^ 2) ∧
    diskSed k mdot nu rg i d mass = Real.cos i * diskSed k mdot nu rg 0 d mass := by
  refine ⟨?_, ?_, ?_, ?_⟩
  · intro h0 h1
    have hcos : 0 < Real.cos i := Real.cos_pos_of_mem_Ioo ⟨by linarith [Real.pi_pos], h1⟩
    have hrin : 0 < innerRadius k mass rg := by
      have := hk.G; have := hk.c
      unfold innerRadius; positivity
    have hT : 0 < tempAtR0 k mass mdot (innerRadius k mass rg) := by
      have := hk.G; have := hk.sigma; have := Real.pi_pos
      unfold tempAtR0; positivity
    have hx : 0 < xIn k nu (tempAtR0 k mass mdot (innerRadius k mass rg)) (innerRadius k mass rg) :=
      lt_max_of_lt_right (by norm_num)
    have hq := quad_pos hx
    have hr0 : 0 < r0 (innerRadius k mass rg) := by unfold r0; positivity
    have := hk.kB; have := hk.h; have := hk.c; have := hk.toNJy; have := Real.pi_pos
    unfold diskSed
    dsimp only
    positivity
  · unfold diskSed
    simp [Real.cos_pi_div_two]
  · intro a ha
    unfold diskSed
    dsimp only
    field_simp
  · unfold diskSed
    simp only [Real.cos_zero]
    ring

theorem fluxRow_get {delta : List (Option ℝ)} {avg : List ℝ} {w : Nat} {m : Option ℝ} {f : ℝ} (hd : delta[w]? = some m) (hf : avg[w]? = some f) :
    (fluxRow delta avg)[w]? = some (m.map fun m => (10 : ℝ) ^ (-0.4 * m) * f) := by
  unfold fluxRow
  rw [List.getElem?_zipWith, hd, hf]

theorem decay_nonneg {m dt c s u : ℝ} (hm : 0 ≤ m) (hs : 0 ≤ s) (hu : 0 ≤ u) : 0 ≤ decay m dt c s u := by
  unfold decay
  have := Real.exp_pos (-dt / c)
  have := Real.sqrt_nonneg (1 - Real.exp (-2 * dt / c))
  positivity

/-- the first sample and the later ones of the random walk are nonnegative if the draws and the amplitudes are. -/
theorem drw_nonneg {times tau sf : List ℝ} {t0 : ℝ} {u : Nat → ℝ} {rows : List (List (Option ℝ))} (h : drw times tau sf t0 u = .ok rows)
    (hu : ∀ n, 0 ≤ u n) {w : Nat} {c s : ℝ} (hc : tau[w]? = some c) (hs : sf[w]? = some s) (hcp : 0 < c) (hsp : 0 ≤ s)
    (h0 : ∀ t, times[0]? = some t → t0 ≤ t) (j : Nat) (hj : j < times.length) :
    ∃ row m, rows[j]? = some row ∧ row[w]? = some (some m) ∧ 0 ≤ m := by
  obtain ⟨_, hlen, _, hstep⟩ := C55_steps_partial.2 rows h
  obtain ⟨hf, hn⟩ := hstep w c s hc hs hcp
  induction j with
  | zero =>
    obtain ⟨row, hr, hv⟩ := hf times[0] (List.getElem?_eq_getElem hj) (h0 _ (List.getElem?_eq_getElem hj))
    exact ⟨row, _, hr, hv, decay_nonneg (mul_nonneg (hu 0) hsp) hsp (hu 1)⟩
  | succ j ih =>
    obtain ⟨prev, m, hp, hm, hpos⟩ := ih (by omega)
    obtain ⟨row, hr, hv⟩ := hn j times[j + 1] prev m (List.getElem?_eq_getElem hj) hp hm
    exact ⟨row, _, hr, hv, decay_nonneg hpos hsp (hu _)⟩

theorem params_pos {k : Consts} (hk : k.Pos) (t0 mass edd i d : ℝ) :
    0 < (params k t0 mass edd i d).sf4000 ∧ 0 < (params k t0 mass edd i d).tau4000 := by
  unfold params sfInf4000 tau4000
  exact ⟨Real.rpow_pos_of_pos (by norm_num) _, Real.rpow_pos_of_pos (by norm_num) _⟩

theorem tau_pos {s w : ℝ} (hs : 0 < s) (hw : 0 < w) : 0 < tau s w := by
  unfold tau
  have := Real.rpow_pos_of_pos (show (0 : ℝ) < 10 by norm_num) 0.17
  positivity

theorem sfInf_pos {s w : ℝ} (hs : 0 < s) (hw : 0 < w) : 0 < sfInf s w := by
  unfold sfInf
  have := Real.rpow_pos_of_pos (show (0 : ℝ) < 10 by norm_num) (-0.479)
  positivity

/-- C80. The flux density is a matrix with a row for each time and a column for each wavelength; each entry is the average flux of
the disk at that wavelength, changed by the magnitudes of the random walk of that wavelength. -/
theorem C80_flux {k : Consts} {rng : Nat → ℝ} {pos : Nat} {p : Params} {times waves : List ℝ} {rows : List (List (Option ℝ))}
    (h : (computeSed k rng pos p times waves).2 = .ok rows) :
    ∃ walk, drw times (waves.map fun w => tau p.tau4000 (w * k.angToCm)) (waves.map fun w => sfInf p.sf4000 (w * k.angToCm)) p.t0
        (fun n => rng (pos + n)) = .ok walk ∧ rows.length = times.length ∧
      ∀ (j w : Nat) (drow : List (Option ℝ)) (m : Option ℝ) (x : ℝ), walk[j]? = some drow → drow[w]? = some m → waves[w]? = some x →
        ∃ row, rows[j]? = some row ∧ row[w]? = some (m.map fun m => (10 : ℝ) ^ (-0.4 * m) * diskFlux k p x) := by
  unfold computeSed at h
  cases hd : drw times (waves.map fun w => tau p.tau4000 (w * k.angToCm)) (waves.map fun w => sfInf p.sf4000 (w * k.angToCm)) p.t0
        (fun n => rng (pos + n)) with
  | error e => rw [hd] at h; cases h
  | ok walk =>
    rw [hd] at h
    dsimp only at h
    injection h with h
    subst h
    refine ⟨walk, rfl, ?_, ?_⟩
    · rw [List.length_map, (C55_steps_partial.2 walk hd).2.1]
    · intro j w drow m x hj hw hx
      refine ⟨_, by rw [List.getElem?_map, hj]; rfl, ?_⟩
      exact fluxRow_get hw (by rw [List.getElem?_map, hx]; rfl)

/-- C80 fails: the variability should scatter the flux on both sides of the average of the disk. The random numbers lie between
0 and 1, so the object is never brighter than the average: not for any parameters, times after `t0`, wavelengths or seed. -/
theorem C80_dimming_counterexample {k : Consts} (hk : k.Pos) {rng : Nat → ℝ} (hu : ∀ n, 0 ≤ rng n) {pos : Nat} {t0 mass edd i d : ℝ}
    {times waves : List ℝ} {rows : List (List (Option ℝ))} (hw : ∀ w ∈ waves, 0 < w) (h0 : ∀ t ∈ times, t0 ≤ t)
    (hdisk : ∀ w ∈ waves, 0 ≤ diskFlux k (params k t0 mass edd i d) w)
    (h : (computeSed k rng pos (params k t0 mass edd i d) times waves).2 = .ok rows) (j w : Nat) (hj : j < times.length) (hwl : w < waves.length) :
    ∃ row f, rows[j]? = some row ∧ row[w]? = some (some f) ∧ f ≤ diskFlux k (params k t0 mass edd i d) waves[w] := by
  obtain ⟨walk, hd, _, hget⟩ := C80_flux h
  have hwx : waves[w]? = some waves[w] := List.getElem?_eq_getElem hwl
  have hwp : 0 < waves[w] * k.angToCm := mul_pos (hw _ (List.getElem_mem hwl)) hk.angToCm
  obtain ⟨hs, ht⟩ := params_pos hk t0 mass edd i d
  obtain ⟨drow, m, hr, hm, hmp⟩ := drw_nonneg hd (fun n => hu _) (w := w) (by rw [List.getElem?_map, hwx]; rfl) (by rw [List.getElem?_map, hwx]; rfl)
    (tau_pos ht hwp) (sfInf_pos hs hwp).le (fun t h => h0 t (List.mem_of_getElem? h)) j hj
  obtain ⟨row, hrow, hv⟩ := hget j w drow (some m) waves[w] hr hm hwx
  refine ⟨row, _, hrow, hv, ?_⟩
  have : (10 : ℝ) ^ (-0.4 * m) ≤ 1 := Real.rpow_le_one_of_one_le_of_nonpos (by norm_num) (by linarith)
  exact mul_le_of_le_one_left (hdisk _ (List.getElem_mem hwl)) this

/-- a concrete object meets the hypotheses of the theorem above: unit constants, one time at `t0`, one wavelength. -/
example : ∃ (k : Consts) (rng : Nat → ℝ) (rows : List (List (Option ℝ))), k.Pos ∧ (∀ n, 0 ≤ rng n) ∧
    0 ≤ diskFlux k (params k 0 1 1 0 1) 1 ∧ (computeSed k rng 0 (params k 0 1 1 0 1) [0] [1]).2 = .ok rows := by
  let k : Consts := ⟨1, 1, 1, 1, 1, 1, 1, 1, 1⟩
  have hk : k.Pos := by constructor <;> exact one_pos
  have hd : 0 ≤ diskFlux k (params k 0 1 1 0 1) 1 := by
    refine ((C80_disk hk ?_ ?_ (by norm_num) ?_ ?_).1 le_rfl (by linarith [Real.pi_pos])).le
    · rw [(C79_linear hk _ _ _ _ _).2.1]; norm_num
    · show (0 : ℝ) < 1 / (1 * 1); norm_num
    · show (0 : ℝ) < 1 * 1; norm_num
    · show (0 : ℝ) < 1 * 1; norm_num
  have hc : ∃ rows, (computeSed k (fun _ => 0) 0 (params k 0 1 1 0 1) [0] [1]).2 = .ok rows := by
    unfold computeSed drw
    rw [if_neg (by simp)]
    unfold drwLoop
    rw [if_neg (by simp)]
    unfold drwLoop
    exact ⟨_, rfl⟩
  obtain ⟨rows, hr⟩ := hc
  exact ⟨k, fun _ => 0, rows, hk, fun _ => le_refl 0, hd, hr⟩

/-- C80 fails: the flux should be a function of the sampled parameters, the times and the wavelengths, as it is for the other
models. It also depends on how often the object was evaluated before: with the same parameters, time and wavelength a second
evaluation gives another flux. -/
theorem C80_repeat_counterexample {k : Consts} (hk : k.Pos) {t0 mass edd i d wave : ℝ} (hwave : 0 < wave)
    (hdisk : 0 < diskFlux k (params k t0 mass edd i d) wave) :
    ∃ (rng : Nat → ℝ) (rows rows' : List (List (Option ℝ))), (∀ n, 0 ≤ rng n ∧ rng n < 1) ∧
      (computeSed k rng 0 (params k t0 mass edd i d) [t0] [wave]).2 = .ok rows ∧
      (computeSed k rng (computeSed k rng 0 (params k t0 mass edd i d) [t0] [wave]).1 (params k t0 mass edd i d) [t0] [wave]).2 = .ok rows' ∧
      rows ≠ rows' := by
  let p := params k t0 mass edd i d
  have hpos := params_pos hk t0 mass edd i d
  have hsf : 0 < sfInf p.sf4000 (wave * k.angToCm) := sfInf_pos hpos.1 (mul_pos hwave hk.angToCm)
  have htau : 0 < tau p.tau4000 (wave * k.angToCm) := tau_pos hpos.2 (mul_pos hwave hk.angToCm)
  have key : ∀ (rng : Nat → ℝ) (pos : Nat), computeSed k rng pos p [t0] [wave] =
      (pos + 2, .ok [[some ((10 : ℝ) ^ (-0.4 * decay (rng pos * sfInf p.sf4000 (wave * k.angToCm)) (t0 - t0) (tau p.tau4000 (wave * k.angToCm))
        (sfInf p.sf4000 (wave * k.angToCm)) (rng (pos + 1))) * diskFlux k p wave)]]) := by
    intro rng pos
    unfold computeSed drw
    rw [if_neg (by simp)]
    unfold drwLoop
    rw [if_neg (by simp)]
    unfold drwLoop
    dsimp only [List.map, List.zip, List.zipWith]
    rw [show p.t0 = t0 from rfl, step_eq htau (by rw [sub_self])]
    rfl
  refine ⟨fun n => if n = 0 then 1 / 2 else 0, _, _, ?_, by rw [key], by rw [key, key], ?_⟩
  · intro n
    dsimp only
    split <;> norm_num
  · intro h
    simp only [List.cons.injEq, Option.some.injEq, and_true] at h
    have := mul_right_cancel₀ hdisk.ne' h
    have := (Real.rpow_right_inj (by norm_num) (by norm_num)).1 this
    unfold decay at this
    simp at this
    rcases this with h | h
    · norm_num at h
    · exact hsf.ne' h

/-! ## The Eddington ratio distribution -/

/-- C81, what holds: a value for each sample of the parameters; one sample is returned as a number, several as an array; other
galaxy types are rejected. What is missing: the value is not that of the broken power law (`C81_law_counterexample`). -/
theorem C81_values_partial (galaxy : String) (ratio : ℝ) (draws : List (ℝ × ℝ × ℝ)) :
    (galaxy ≠ "red" → galaxy ≠ "blue" → eddingtonRatioDist galaxy ratio draws = .error .valueError) ∧
    (galaxy = "red" ∨ galaxy = "blue" →
      (∀ d, draws = [d] → eddingtonRatioDist galaxy ratio draws = .ok (.inr (eddDist (galaxy == "red") ratio d.1 d.2.1 d.2.2))) ∧
      (draws.length ≠ 1 → ∃ vs, eddingtonRatioDist galaxy ratio draws = .ok (.inl vs) ∧ vs.length = draws.length ∧
        ∀ (j : Nat) d, draws[j]? = some d → vs[j]? = some (eddDist (galaxy == "red") ratio d.1 d.2.1 d.2.2))) := by
  constructor
  · intro h1 h2
    unfold eddingtonRatioDist
    rw [if_neg (by tauto)]
  · intro h
    constructor
    · rintro d rfl
      unfold eddingtonRatioDist
      rw [if_pos h]
      rfl
    · intro hl
      refine ⟨draws.map fun d => eddDist (galaxy == "red") ratio d.1 d.2.1 d.2.2, ?_, by simp, ?_⟩
      · unfold eddingtonRatioDist
        rw [if_pos h]
        match draws, hl with
        | [], _ => rfl
        | [_], hl => exact absurd rfl hl
        | _ :: _ :: _, _ => rfl
      · intro j d hj
        rw [List.getElem?_map, hj]
        rfl

/-- C81 fails: the distribution should be a broken power law, `xi / ((r / br) ^ d1 + (r / br) ^ d2)`, that falls above the break.
The code multiplies by the sum instead of dividing by it, so for a positive upper slope the value at `n` times the break is at least
`n ^ d2` times the normalisation, where the law gives at most `n ^ -d2` times it. -/
theorem C81_law_counterexample (red : Bool) {br d1 d2 n : ℝ} (hb : 0 < br) (hn : 1 < n) (hd : 0 < d2) :
    xi red * n ^ d2 ≤ eddDist red (n * br) br d1 d2 ∧ xi red / (n ^ d1 + n ^ d2) < xi red * n ^ (-d2) ∧
    xi red / ((n * br / br) ^ d1 + (n * br / br) ^ d2) < eddDist red (n * br) br d1 d2 := by
  have hx : 0 < xi red := by
    unfold xi
    split <;> exact Real.rpow_pos_of_pos (by norm_num) _
  have e : n * br / br = n := by field_simp
  have hn0 : 0 < n := by linarith
  have p1 := Real.rpow_pos_of_pos hn0 d1
  have p2 := Real.rpow_pos_of_pos hn0 d2
  have h1 : xi red * n ^ d2 ≤ eddDist red (n * br) br d1 d2 := by
    unfold eddDist
    rw [e]
    nlinarith
  have h2 : xi red / (n ^ d1 + n ^ d2) < xi red * n ^ (-d2) := by
    rw [Real.rpow_neg hn0.le, ← div_eq_mul_inv]
    exact div_lt_div_of_pos_left hx p2 (by linarith)
  refine ⟨h1, h2, ?_⟩
  rw [e]
  have h3 : n ^ (-d2) < n ^ d2 := Real.rpow_lt_rpow_of_exponent_lt hn (by linarith)
  calc xi red / (n ^ d1 + n ^ d2) < xi red * n ^ (-d2) := h2
    _ < xi red * n ^ d2 := by gcongr
    _ ≤ _ := h1

end LCL.AgnProps
