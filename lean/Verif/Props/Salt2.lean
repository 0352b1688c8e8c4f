import Verif.Model.Salt2
import Verif.Spec.Salt2
import Verif.Props.Units
import Verif.Props.Physical
import Mathlib.Tactic.ComputeDegree

/-!
# C76, C77, C78: the SALT2 colour law, SN Ia brightness and phase windows
-/

namespace LCL
open Salt2 Salt2Spec Polynomial
variable {K : Type} [Field K] [LinearOrder K] [IsStrictOrderedRing K]

/-! ## C76: the colour law -/

omit [LinearOrder K] [IsStrictOrderedRing K] in
theorem powSum_poly (u : K) : ∀ (l : List K) (n : Nat), powSum n u l = (polyFrom n l).eval u
  | [], n => by simp [powSum, polyFrom]
  | c :: cs, n => by simp [powSum, polyFrom, powSum_poly u cs (n + 1)]

omit [LinearOrder K] [IsStrictOrderedRing K] in
theorem dSum_poly (u : K) : ∀ (l : List K) (n : Nat), dSum n u l = (derivative (polyFrom (n + 1) l)).eval u
  | [], n => by simp [dSum, polyFrom]
  | c :: cs, n => by
    simp [dSum, polyFrom, dSum_poly u cs (n + 1), derivative_X_pow]
    ring

omit [LinearOrder K] [IsStrictOrderedRing K] in
theorem polyFrom_zeros : ∀ (l : List K) (n k : Nat), polyFrom n (l ++ List.replicate k 0) = polyFrom n l
  | [], n, 0 => rfl
  | [], n, k + 1 => by
    have := polyFrom_zeros ([] : List K) (n + 1) k
    simp only [List.nil_append] at this
    simp [List.replicate_succ, polyFrom, this]
  | c :: l, n, k => by simp [polyFrom, polyFrom_zeros l (n + 1) k]

omit [LinearOrder K] [IsStrictOrderedRing K] in
theorem padded_poly (coeffs : List K) : polyFrom 1 (padded coeffs) = lawPoly coeffs := by
  unfold padded lawPoly
  simp only [polyFrom, pow_one, polyFrom_zeros, List.sum_append, List.sum_replicate, smul_zero, add_zero]

omit [LinearOrder K] [IsStrictOrderedRing K] in
theorem padded_deriv (coeffs : List K) (u : K) :
    dSum 1 u (padded coeffs).tail + (padded coeffs).headD 0 = (derivative (lawPoly coeffs)).eval u := by
  rw [← padded_poly]
  unfold padded
  simp only [List.tail_cons, List.headD_cons, dSum_poly, polyFrom, pow_one, derivative_add, derivative_mul, derivative_C,
    derivative_X, zero_mul, mul_one, zero_add, eval_add, eval_C]
  ring

theorem width_pos : (0 : K) < waveV - waveB := by unfold waveV waveB; norm_num

theorem scaled_eq (w : K) : scaled w = reduced w := by
  unfold scaled reduced waveB waveV
  rw [mul_one_div]
  norm_num

theorem scaled_lt (a b : K) : scaled a < scaled b ↔ a < b := by
  have h : (0 : K) < 1 / (waveV - waveB) := one_div_pos.2 width_pos
  unfold scaled
  rw [mul_lt_mul_iff_left₀ h, sub_lt_sub_iff_right]

/-- C76: within the wavelength range the colour law is minus the colour polynomial of the scaled wavelength; beyond
either end it continues along the tangent of that polynomial at the end. -/
theorem C76_law (lo hi w : K) (coeffs : List K) :
    (lo ≤ w → w ≤ hi → (ColorLaw.init lo hi coeffs).at w = -(lawPoly coeffs).eval (reduced w)) ∧
    (w < lo → (ColorLaw.init lo hi coeffs).at w =
      -((lawPoly coeffs).eval (reduced lo) + (derivative (lawPoly coeffs)).eval (reduced lo) * (reduced w - reduced lo))) ∧
    (lo ≤ w → hi < w → (ColorLaw.init lo hi coeffs).at w =
      -((lawPoly coeffs).eval (reduced hi) + (derivative (lawPoly coeffs)).eval (reduced hi) * (reduced w - reduced hi))) := by
  unfold ColorLaw.at ColorLaw.raw ColorLaw.init
  dsimp only
  simp only [gt_iff_lt, scaled_lt]
  refine ⟨?_, ?_, ?_⟩
  · intro h1 h2
    rw [if_neg (not_lt.2 h1), if_neg (not_lt.2 h2), powSum_poly, padded_poly, scaled_eq]
  · intro h
    rw [if_pos h, powSum_poly, padded_poly, padded_deriv]
    simp only [scaled_eq]
  · intro h1 h2
    rw [if_neg (not_lt.2 h1), if_pos h2, powSum_poly, padded_poly, padded_deriv]
    simp only [scaled_eq]

omit [LinearOrder K] [IsStrictOrderedRing K] in
theorem polyFrom_one : ∀ (l : List K) (n : Nat), (polyFrom n l).eval 1 = l.sum
  | [], n => by simp [polyFrom]
  | c :: l, n => by simp [polyFrom, polyFrom_one l (n + 1)]

omit [LinearOrder K] [IsStrictOrderedRing K] in
theorem polyFrom_zero : ∀ (l : List K) (n : Nat), 0 < n → (polyFrom n l).eval 0 = 0
  | [], n, _ => by simp [polyFrom]
  | c :: l, n, h => by simp [polyFrom, polyFrom_zero l (n + 1) (by omega), h.ne']

omit [LinearOrder K] [IsStrictOrderedRing K] in
theorem polyFrom_degree : ∀ (l : List K) (n m : Nat), n + l.length ≤ m + 1 → (polyFrom n l).natDegree ≤ m
  | [], n, m, _ => by simp [polyFrom]
  | c :: l, n, m, h => by
    simp only [List.length_cons] at h
    unfold polyFrom
    refine (natDegree_add_le _ _).trans (max_le ?_ (polyFrom_degree l (n + 1) m (by omega)))
    exact (natDegree_C_mul_X_pow_le _ _).trans (by omega)

/-- C76: whatever the coefficients, the law is 0 at the blue reference wavelength and -1 at the visual one (when they
are in range), so the colour parameter is the B-V colour; the polynomial has degree at most seven. -/
theorem C76_anchors (lo hi : K) (coeffs : List K) :
    (lawPoly coeffs).natDegree ≤ 7 ∧
    (lo ≤ 4302.57 → 4302.57 ≤ hi → (ColorLaw.init lo hi coeffs).at 4302.57 = 0) ∧
    (lo ≤ 5428.55 → 5428.55 ≤ hi → (ColorLaw.init lo hi coeffs).at 5428.55 = -1) := by
  refine ⟨?_, ?_, ?_⟩
  · unfold lawPoly
    refine (natDegree_add_le _ _).trans (max_le ?_ (polyFrom_degree _ _ _ ?_))
    · exact (natDegree_C_mul_le _ _).trans ((natDegree_X_le).trans (by omega))
    · have := List.length_take_le 6 coeffs; omega
  · intro h1 h2
    rw [(C76_law lo hi _ coeffs).1 h1 h2]
    have : reduced (4302.57 : K) = 0 := by unfold reduced; rw [sub_self, zero_div]
    rw [this]
    unfold lawPoly
    simp [polyFrom_zero]
  · intro h1 h2
    rw [(C76_law lo hi _ coeffs).1 h1 h2]
    have : reduced (5428.55 : K) = 1 := by
      unfold reduced; rw [div_self]
      norm_num
    rw [this]
    unfold lawPoly
    simp [polyFrom_one]

/-- C76: `apply` treats every wavelength on its own, and coefficients after the sixth change nothing. -/
theorem C76_apply (lo hi : K) (coeffs more : List K) (ws : List K) :
    (ColorLaw.init lo hi coeffs).apply ws = ws.map (ColorLaw.init lo hi coeffs).at ∧
    (6 ≤ coeffs.length → ColorLaw.init lo hi (coeffs ++ more) = ColorLaw.init lo hi coeffs) := by
  refine ⟨rfl, fun h => ?_⟩
  have : padded (coeffs ++ more) = padded coeffs := by
    unfold padded
    rw [List.take_append_of_le_length h]
  unfold ColorLaw.init
  rw [this]

/-- Non-vacuity: one quadratic coefficient, inside and beyond the range. -/
example : (ColorLaw.init (3000 : ℚ) 7000 [2]).at 5428.55 = -1 ∧ (ColorLaw.init (3000 : ℚ) 7000 [2]).at 2000 ≠ 0 := by
  decide +kernel

omit [Field K] [LinearOrder K] [IsStrictOrderedRing K] in
theorem hasSub_iff (needle : Name) : ∀ s, hasSub needle s = true ↔ needle <:+: s
  | [] => by
    unfold hasSub
    rw [List.isPrefixOf_iff_prefix, List.prefix_nil, List.infix_nil]
  | c :: s => by
    unfold hasSub
    rw [Bool.or_eq_true, hasSub_iff needle s, List.isPrefixOf_iff_prefix, List.infix_cons_iff]

/-- C76: a colour-law file (count, coefficients, then labelled version and wavelength range) gives the law it describes;
without labels the range is 3000 to 7000 Å; another version raises. -/
theorem C76_file (P : Parser K) (count : Name) (toks : List Name) (coeffs : List K) (hc : P.int count = some (toks.length : Int))
    (ht : toks.mapM P.float = some coeffs) :
    readLaw P (count :: toks) = .ok (ColorLaw.init 3000 7000 coeffs) ∧
    (∀ (lv v ll l lh h : Name) (a b : K), "version".toList <:+: lv → ¬ "min_lambda".toList <:+: lv → ¬ "max_lambda".toList <:+: lv →
      "min_lambda".toList <:+: ll → "max_lambda".toList <:+: lh → ¬ "min_lambda".toList <:+: lh →
      P.float l = some a → P.float h = some b →
      (P.int v = some 1 → readLaw P (count :: toks ++ [lv, v, ll, l, lh, h]) = .ok (ColorLaw.init a b coeffs)) ∧
      (∀ n, P.int v = some n → n ≠ 1 → readLaw P (count :: toks ++ [lv, v, ll, l, lh, h]) = .error .runtimeError)) := by
  have hneg : ¬ ((toks.length : Int) < 0) := by omega
  have e1 : (toks.length : Int).toNat = toks.length := rfl
  constructor
  · unfold readLaw
    dsimp only
    rw [hc]; dsimp only
    rw [if_neg hneg, e1, List.take_length, ht]; dsimp only
    rw [List.drop_length]
    rfl
  · intro lv v ll l lh h a b h1 h2 h3 h4 h5 h6 hl hh
    rw [← hasSub_iff] at h1 h2 h3 h4 h5 h6
    have run : ∀ r, readMeta P (3000, 7000) [lv, v, ll, l, lh, h] = r →
        readLaw P (count :: toks ++ [lv, v, ll, l, lh, h]) = (match r with | .error e => .error e | .ok (lo, hi) => .ok (ColorLaw.init lo hi coeffs)) := by
      intro r hr
      rw [List.cons_append]
      unfold readLaw
      dsimp only
      rw [hc]; dsimp only
      rw [if_neg hneg, e1, List.take_left, ht]; dsimp only
      rw [List.drop_left, hr]
      cases r <;> rfl
    constructor
    · intro hv
      rw [run (.ok (a, b))]
      unfold readMeta
      rw [if_neg h2, if_neg h3, if_pos h1, hv]; dsimp only
      rw [if_neg (by simp)]
      unfold readMeta
      rw [if_pos h4, hl]; dsimp only
      unfold readMeta
      rw [if_neg h6, if_pos h5, hh]
      rfl
    · intro n hv hn
      rw [run (.error .runtimeError)]
      unfold readMeta
      rw [if_neg h2, if_neg h3, if_pos h1, hv]; dsimp only
      rw [if_pos hn]

/-- Non-vacuity of the label conditions: the labels used by the distributed files. -/
example : "version".toList <:+: "Salt2ExtinctionLaw.version".toList ∧ ¬ "min_lambda".toList <:+: "Salt2ExtinctionLaw.version".toList ∧
    "min_lambda".toList <:+: "Salt2ExtinctionLaw.min_lambda".toList ∧ "max_lambda".toList <:+: "Salt2ExtinctionLaw.max_lambda".toList ∧
    ¬ "min_lambda".toList <:+: "Salt2ExtinctionLaw.max_lambda".toList ∧ ¬ "max_lambda".toList <:+: "Salt2ExtinctionLaw.version".toList := by
  simp only [← hasSub_iff]
  decide

/-! ## C77: SN Ia brightness -/

/-- C77: the SALT2 spectrum: every entry is `x0 (M0 + x1 M1) 10^(-0.4 CL c)` at its own phase and wavelength, converted
from erg/s/cm²/Å to nJy. -/
theorem C77_spectrum (m0 m1 : ℝ → ℝ → ℝ) (law : ColorLaw ℝ) (x0 x1 c t0 : ℝ) (times waves : List ℝ) :
    ∃ r, Salt2.computeSed m0 m1 law x0 x1 c t0 times waves = .ok r ∧ r.shape = [waves.length, times.length] ∧
      ∀ (i j : Nat) (t w : ℝ), times[i]? = some t → waves[j]? = some w →
        r.get [j, i] / 10 ^ 35 = x0 * (m0 (t - t0) w + x1 * m1 (t - t0) w) * (10 : ℝ) ^ (-0.4 * law.at w * c) * 10 ^ 7 * (w / 10 ^ 10) ^ 2 / 299792458 := by
  have hu : UnitSpec.GoodUnits unitAA unitFlam unitNJy := by
    constructor
    · exact ⟨rfl, by unfold unitAA; norm_num⟩
    · exact ⟨rfl, by unfold unitFlam; norm_num⟩
    · exact ⟨rfl, by unfold unitNJy; norm_num⟩
  obtain ⟨r, hr, hs, he⟩ := (UnitProps.C52_physical (UnitSpec.WaveFor.row (flux := ⟨[waves.length, times.length],
    entry times waves fun t w => flam x0 x1 c law (m0 (t - t0) w) (m1 (t - t0) w) w⟩) (w := ⟨[waves.length], fun i => waves.getD (i.headD 0) 0⟩)
    rfl rfl) hu).1
  refine ⟨r, hr, hs, ?_⟩
  intro i j t w ht hw
  obtain ⟨hi, hi'⟩ := List.getElem?_eq_some_iff.1 ht
  obtain ⟨hj, hj'⟩ := List.getElem?_eq_some_iff.1 hw
  have := he [j, i] ⟨hj, hi, trivial⟩
  have e1 : entry times waves (fun t w => flam x0 x1 c law (m0 (t - t0) w) (m1 (t - t0) w) w) [j, i] = flam x0 x1 c law (m0 (t - t0) w) (m1 (t - t0) w) w := by
    unfold entry
    dsimp only
    rw [List.getD_eq_getElem?_getD, List.getD_eq_getElem?_getD, ht, hw]
    rfl
  have e2 : waves.getD j 0 = w := by rw [List.getD_eq_getElem?_getD, hw]; rfl
  dsimp only at this
  rw [e1] at this
  simp only [List.headD_cons, e2] at this
  unfold unitNJy unitFlam unitAA flam at this
  dsimp only at this
  have e3 : (-0.4 : ℝ) * law.at w * c = -(4 / 10) * law.at w * c := by norm_num
  rw [e3]
  rw [div_eq_mul_one_div, this]
  ring

/-- C77: with a colour law in range at both references, the colour parameter leaves the flux at the blue reference alone
and multiplies the flux at the visual one by `10^(0.4 c)`. -/
theorem C77_colour (lo hi x0 x1 c m0 m1 : ℝ) (coeffs : List ℝ) (h1 : lo ≤ 4302.57) (h2 : 5428.55 ≤ hi) :
    Salt2.flam x0 x1 c (ColorLaw.init lo hi coeffs) m0 m1 4302.57 = x0 * (m0 + x1 * m1) ∧
    Salt2.flam x0 x1 c (ColorLaw.init lo hi coeffs) m0 m1 5428.55 = x0 * (m0 + x1 * m1) * (10 : ℝ) ^ (0.4 * c) := by
  have a := (C76_anchors lo hi coeffs).2
  unfold Salt2.flam
  rw [a.1 h1 (le_trans (by norm_num) h2), a.2 (h1.trans (by norm_num)) h2]
  constructor
  · simp
  · norm_num

/-- C77: `x0` from the distance modulus obeys the Tripp relation, whatever the parameters: the peak magnitude
`10.635 - 2.5 log10 x0`, corrected for stretch and colour, gives the distance modulus back; `x0` is positive, and five
magnitudes of distance modulus are a factor of a hundred. -/
theorem C77_tripp (mu x1 c alpha beta mAbs : ℝ) :
    0 < x0FromDistmod mu x1 c alpha beta mAbs ∧
    (10.635 - 2.5 * Real.logb 10 (x0FromDistmod mu x1 c alpha beta mAbs)) - mAbs + alpha * x1 - beta * c = mu ∧
    x0FromDistmod (mu + 5) x1 c alpha beta mAbs = x0FromDistmod mu x1 c alpha beta mAbs / 100 := by
  unfold x0FromDistmod
  refine ⟨Real.rpow_pos_of_pos (by norm_num) _, ?_, ?_⟩
  · rw [Real.logb_rpow (by norm_num) (by norm_num)]
    norm_num
    ring
  · have e : -(4 / 10 : ℝ) * (mu + 5 - alpha * x1 + beta * c + mAbs - 10635 / 1000) =
        -(4 / 10) * (mu - alpha * x1 + beta * c + mAbs - 10635 / 1000) - (2 : ℕ) := by push_cast; ring
    rw [e, Real.rpow_sub_natCast (by norm_num)]
    norm_num

/-- C77: the volumetric rate is positive, grows with redshift, and is 2.27e-5 today. -/
theorem C77_rate (z z' : ℝ) (h : -1 < z) (hz : z < z') : 0 < volumetricRate z ∧ volumetricRate z < volumetricRate z' ∧ volumetricRate 0 = 2.27e-5 := by
  unfold volumetricRate
  have p : 0 < (1 + z) ^ (17 / 10 : ℝ) := Real.rpow_pos_of_pos (by linarith) _
  have q : (1 + z) ^ (17 / 10 : ℝ) < (1 + z') ^ (17 / 10 : ℝ) := Real.rpow_lt_rpow (by linarith) (by linarith) (by norm_num)
  refine ⟨by positivity, by nlinarith, ?_⟩
  rw [add_zero, Real.one_rpow]
  norm_num

/-! ## C78: phase windows -/

/-- C78: an observation passes the time mask exactly when its rest-frame phase lies strictly inside the model's phase
range; a missing redshift counts as 0 and a missing `t0` as 0. -/
theorem C78_mask (lo hi : K) (z t0 : Option K) (t : K) (hz : ∀ v, z = some v → -1 < v) :
    maskByTime lo hi z t0 t = true ↔
      lo < (t - t0.getD 0) / (1 + z.getD 0) ∧ (t - t0.getD 0) / (1 + z.getD 0) < hi := by
  have hp : 0 < 1 + z.getD 0 := by
    cases z with
    | none => simp
    | some v => have := hz v rfl; simp only [Option.getD_some]; linarith
  unfold maskByTime
  dsimp only
  rw [Bool.and_eq_true, decide_eq_true_iff, decide_eq_true_iff, lt_div_iff₀ hp, div_lt_iff₀ hp]
  constructor
  · rintro ⟨h1, h2⟩; exact ⟨by linarith, by linarith⟩
  · rintro ⟨h1, h2⟩; exact ⟨by linarith, by linarith⟩

/-- C78: the phase in the mask is the one at which the spectrum is evaluated (the rest-frame time minus `t0`). -/
theorem C78_same_phase (lo hi z t0 t : K) (hz : -1 < z) :
    maskByTime lo hi (some z) (some t0) t = true ↔
      lo < obsToRestTime z t0 t - t0 ∧ obsToRestTime z t0 t - t0 < hi := by
  rw [C78_mask lo hi (some z) (some t0) t (by rintro v ⟨⟩; exact hz)]
  have : obsToRestTime z t0 t - t0 = (t - t0) / (1 + z) := by unfold obsToRestTime; ring
  rw [this]
  rfl

example : maskByTime (-20 : ℚ) 50 (some 1) (some 100) 70 = true ∧ maskByTime (-20 : ℚ) 50 none (some 100) 70 = false := by decide +kernel

end LCL
