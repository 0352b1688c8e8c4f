import Verif.Model.SnCoord
import Verif.Model.Salt2
import Verif.Spec.Sky
import Verif.Props.RandomNodes
import Mathlib.Analysis.Real.Pi.Bounds

/-!
# Properties C94 and C95: supernova positions and cosmology nodes
-/

namespace LCL.SnCoordProps
open LCL LCL.RandomNodes LCL.SnCoord LCL.Sky

theorem dot_walk (ra dec b d : ℝ) : dot (dir ra dec) (walk ra dec b d) = Real.cos d := by
  have h1 := Real.sin_sq_add_cos_sq (rad dec)
  have h2 := Real.sin_sq_add_cos_sq (rad ra)
  simp only [dot, dir, walk, north, east]
  linear_combination (Real.cos d * Real.cos (rad dec) ^ 2 - Real.sin d * Real.cos b * Real.sin (rad dec) * Real.cos (rad dec)) * h2 + Real.cos d * h1

theorem dir_wrap (x dec : ℝ) : dir (wrap360 x) dec = dir x dec := by
  have h : rad (wrap360 x) = rad x - (⌊x / 360⌋ : ℝ) * (2 * Real.pi) := by
    unfold rad wrap360; ring
  simp only [dir, h, Real.cos_sub_int_mul_two_pi, Real.sin_sub_int_mul_two_pi]

theorem wrap_range (x : ℝ) : 0 ≤ wrap360 x ∧ wrap360 x < 360 := by
  unfold wrap360
  have h1 := Int.floor_le (x / 360)
  have h2 := Int.lt_floor_add_one (x / 360)
  constructor <;> linarith

theorem rad_deg (x : ℝ) : rad (x * 180 / Real.pi) = x := by
  unfold rad
  have := Real.pi_pos.ne'
  field_simp

/-- The sine of the new declination and the radius of its parallel. -/
theorem cosb_sq (φ B d : ℝ) :
    (Real.cos φ * Real.cos d - Real.sin φ * Real.sin d * Real.cos B) ^ 2 + (Real.sin d * Real.sin B) ^ 2 =
      1 - (Real.sin φ * Real.cos d + Real.cos φ * Real.sin d * Real.cos B) ^ 2 := by
  have h1 := Real.sin_sq_add_cos_sq φ
  have h2 := Real.sin_sq_add_cos_sq B
  have h3 := Real.sin_sq_add_cos_sq d
  linear_combination Real.sin d ^ 2 * h2 + h3 + (Real.cos d ^ 2 + Real.sin d ^ 2 * Real.cos B ^ 2) * h1

theorem cosb_range (φ B d : ℝ) : -1 ≤ Real.sin φ * Real.cos d + Real.cos φ * Real.sin d * Real.cos B ∧
    Real.sin φ * Real.cos d + Real.cos φ * Real.sin d * Real.cos B ≤ 1 := by
  have h := cosb_sq φ B d
  have : (Real.sin φ * Real.cos d + Real.cos φ * Real.sin d * Real.cos B) ^ 2 ≤ 1 := by
    nlinarith [sq_nonneg (Real.cos φ * Real.cos d - Real.sin φ * Real.sin d * Real.cos B), sq_nonneg (Real.sin d * Real.sin B)]
  exact abs_le.mp (sq_le_one_iff_abs_le_one _ |>.mp this)

/-- `r cos(atan2 y x) = x` and `r sin(atan2 y x) = y` for the length `r`. -/
theorem atan2_polar {x y r : ℝ} (hr : 0 ≤ r) (h : r ^ 2 = x ^ 2 + y ^ 2) :
    r * Real.cos (arctan2 y x) = x ∧ r * Real.sin (arctan2 y x) = y := by
  have hn : ‖(⟨x, y⟩ : ℂ)‖ = r := by
    rw [Complex.norm_def, Complex.normSq_mk, ← Real.sqrt_sq hr, h]
    congr 1; ring
  have := Complex.norm_mul_cos_arg (⟨x, y⟩ : ℂ)
  have h2 := Complex.norm_mul_sin_arg (⟨x, y⟩ : ℂ)
  rw [hn] at this h2
  exact ⟨this, h2⟩

/-- Adding an angle to the right ascension on a parallel of known radius. -/
theorem dir_offset {lon A s r X Y : ℝ} (h1 : -1 ≤ s) (h2 : s ≤ 1) (hr : r = Real.sqrt (1 - s ^ 2)) (hx : r * Real.cos A = X) (hy : r * Real.sin A = Y) :
    dir ((lon + A) * 180 / Real.pi) (Real.arcsin s * 180 / Real.pi) =
      (X * Real.cos lon - Y * Real.sin lon, X * Real.sin lon + Y * Real.cos lon, s) := by
  unfold dir
  rw [rad_deg, rad_deg, Real.sin_arcsin h1 h2, Real.cos_arcsin, ← hr, Real.cos_add, Real.sin_add]
  subst hx; subst hy
  ext <;> dsimp only <;> ring

theorem offset_walk (ra dec b d : ℝ) (hdec : 1 / 10 ^ 12 ≤ Real.cos (rad dec)) :
    dir (offsetBy (rad ra) (rad dec) b d).1 (offsetBy (rad ra) (rad dec) b d).2 = walk ra dec b d := by
  have hc : 0 < Real.cos (rad dec) := lt_of_lt_of_le (by norm_num) hdec
  obtain ⟨l, u⟩ := cosb_range (rad dec) b d
  unfold offsetBy
  dsimp only
  rw [if_neg (not_lt.mpr hdec), dir_wrap]
  have hsq := cosb_sq (rad dec) b d
  have hs := Real.sin_sq_add_cos_sq (rad dec)
  set s := Real.sin (rad dec) * Real.cos d + Real.cos (rad dec) * Real.sin d * Real.cos b with hsdef
  have hn : 0 ≤ 1 - s ^ 2 := by rw [← hsq]; positivity
  have hpol := atan2_polar (x := Real.cos d - s * Real.sin (rad dec)) (y := Real.sin d * Real.sin b * Real.cos (rad dec))
    (r := Real.sqrt (1 - s ^ 2) * Real.cos (rad dec)) (mul_nonneg (Real.sqrt_nonneg _) hc.le) (by
      rw [mul_pow, Real.sq_sqrt hn, ← hsq, hsdef]
      linear_combination (-2 * Real.cos (rad dec) * Real.sin (rad dec) * Real.cos d * Real.sin d * Real.cos b +
        Real.cos d ^ 2 * Real.cos (rad dec) ^ 2 - Real.cos d ^ 2 * (Real.sin (rad dec) ^ 2 - 1)) * hs)
  obtain ⟨px, py⟩ := hpol
  have qx : Real.sqrt (1 - s ^ 2) * Real.cos (arctan2 (Real.sin d * Real.sin b * Real.cos (rad dec)) (Real.cos d - s * Real.sin (rad dec))) =
      Real.cos (rad dec) * Real.cos d - Real.sin (rad dec) * Real.sin d * Real.cos b := by
    apply mul_right_cancel₀ hc.ne'
    linear_combination px - Real.cos d * hs + 0 * hsdef
  have qy : Real.sqrt (1 - s ^ 2) * Real.sin (arctan2 (Real.sin d * Real.sin b * Real.cos (rad dec)) (Real.cos d - s * Real.sin (rad dec))) =
      Real.sin d * Real.sin b := by
    apply mul_right_cancel₀ hc.ne'
    linear_combination py
  rw [dir_offset l u rfl qx qy]
  unfold walk dir north east
  ext <;> dsimp only
  · ring
  · ring
  · rw [hsdef]; ring

/-- At a pole. -/
theorem offset_pole (ra dec b d : ℝ) (hdec : Real.cos (rad dec) = 0) (h0 : 0 ≤ d) (hpi : d ≤ Real.pi) :
    dir (offsetBy (rad ra) (rad dec) b d).1 (offsetBy (rad ra) (rad dec) b d).2 = walk ra dec b d := by
  obtain ⟨l, u⟩ := cosb_range (rad dec) b d
  have hsd := Real.sin_nonneg_of_nonneg_of_le_pi h0 hpi
  have hs := Real.sin_sq_add_cos_sq (rad dec)
  have hd := Real.sin_sq_add_cos_sq d
  unfold offsetBy
  dsimp only
  rw [if_pos (by rw [hdec]; norm_num), dir_wrap]
  rw [hdec] at hs l u ⊢
  have hs1 : Real.sin (rad dec) = 1 ∨ Real.sin (rad dec) = -1 := by
    have : (Real.sin (rad dec) - 1) * (Real.sin (rad dec) + 1) = 0 := by linear_combination hs
    rcases mul_eq_zero.mp this with h | h
    · left; linarith
    · right; linarith
  have hr : Real.sin d = Real.sqrt (1 - (Real.sin (rad dec) * Real.cos d + 0 * Real.sin d * Real.cos b) ^ 2) := by
    rw [show 1 - (Real.sin (rad dec) * Real.cos d + 0 * Real.sin d * Real.cos b) ^ 2 = Real.sin d ^ 2 by
      linear_combination -Real.cos d ^ 2 * hs - hd, Real.sqrt_sq hsd]
  rcases hs1 with hs1 | hs1
  · rw [dir_offset l u hr (X := -Real.sin d * Real.cos b) (Y := Real.sin d * Real.sin b)
      (by rw [hs1, show Real.pi / 2 + 1 * (Real.pi / 2 - b) = Real.pi - b by ring, Real.cos_pi_sub]; ring)
      (by rw [hs1, show Real.pi / 2 + 1 * (Real.pi / 2 - b) = Real.pi - b by ring, Real.sin_pi_sub])]
    unfold walk dir north east
    ext <;> dsimp only <;> rw [hs1, hdec] <;> ring
  · rw [dir_offset l u hr (X := Real.sin d * Real.cos b) (Y := Real.sin d * Real.sin b)
      (by rw [hs1, show Real.pi / 2 + -1 * (Real.pi / 2 - b) = b by ring])
      (by rw [hs1, show Real.pi / 2 + -1 * (Real.pi / 2 - b) = b by ring])]
    unfold walk dir north east
    ext <;> dsimp only <;> rw [hs1, hdec] <;> ring

/-- Within `10^-12` of a pole the code takes the direction of the pole itself: the angle is right up to `2 * 10^-12`. -/
theorem offset_near_pole (ra dec b d : ℝ) (h0 : 0 ≤ Real.cos (rad dec)) (hdec : Real.cos (rad dec) < 1 / 10 ^ 12) :
    |dot (dir ra dec) (dir (offsetBy (rad ra) (rad dec) b d).1 (offsetBy (rad ra) (rad dec) b d).2) - Real.cos d| ≤ 2 / 10 ^ 12 := by
  obtain ⟨l, u⟩ := cosb_range (rad dec) b d
  have hsq := cosb_sq (rad dec) b d
  have hs := Real.sin_sq_add_cos_sq (rad dec)
  have hlon := Real.sin_sq_add_cos_sq (rad ra)
  unfold offsetBy
  dsimp only
  rw [if_pos hdec, dir_wrap]
  set s := Real.sin (rad dec) * Real.cos d + Real.cos (rad dec) * Real.sin d * Real.cos b with hsdef
  set A := Real.pi / 2 + Real.sin (rad dec) * (Real.pi / 2 - b) with hA
  rw [dir_offset l u rfl rfl rfl]
  have hn : 0 ≤ 1 - s ^ 2 := by rw [← hsq]; positivity
  have hr0 := Real.sqrt_nonneg (1 - s ^ 2)
  have hr1 : Real.sqrt (1 - s ^ 2) ≤ 1 := by
    exact Real.sqrt_le_iff.mpr ⟨zero_le_one, by nlinarith [sq_nonneg s]⟩
  have hrs : Real.sqrt (1 - s ^ 2) ^ 2 = 1 - s ^ 2 := Real.sq_sqrt hn
  have e : dot (dir ra dec) (Real.sqrt (1 - s ^ 2) * Real.cos A * Real.cos (rad ra) - Real.sqrt (1 - s ^ 2) * Real.sin A * Real.sin (rad ra),
      Real.sqrt (1 - s ^ 2) * Real.cos A * Real.sin (rad ra) + Real.sqrt (1 - s ^ 2) * Real.sin A * Real.cos (rad ra), s) - Real.cos d =
      Real.cos (rad dec) * (Real.sqrt (1 - s ^ 2) * Real.cos A - (Real.cos (rad dec) * Real.cos d - Real.sin (rad dec) * Real.sin d * Real.cos b)) := by
    simp only [dot, dir]
    linear_combination Real.cos (rad dec) * Real.sqrt (1 - s ^ 2) * Real.cos A * hlon + Real.cos d * hs + Real.sin (rad dec) * hsdef
  rw [e, abs_mul, abs_of_nonneg h0]
  have h1 : |Real.sqrt (1 - s ^ 2) * Real.cos A| ≤ 1 := by
    rw [abs_mul, abs_of_nonneg hr0]
    exact mul_le_one₀ hr1 (abs_nonneg _) (Real.abs_cos_le_one _)
  have h2 : |Real.cos (rad dec) * Real.cos d - Real.sin (rad dec) * Real.sin d * Real.cos b| ≤ 1 := by
    rw [← sq_le_one_iff_abs_le_one]
    nlinarith [sq_nonneg (Real.sin d * Real.sin b), sq_nonneg s]
  have h3 := (abs_sub _ _).trans (add_le_add h1 h2)
  have h4 := mul_le_mul hdec.le h3 (abs_nonneg _) (by norm_num : (0:ℝ) ≤ 1 / 10 ^ 12)
  refine h4.trans ?_
  norm_num

/-! ## C94: the position of a supernova -/

/-- The outputs of the node for sample `i`. -/
theorem coord_at {ρ : Type} (G : RStream ρ ℝ) (angDist : ℝ → ℝ) (hostRa hostDec sepKpc z : Nat → ℝ) (n : Nat) (glob : ρ) (info : Option ρ) (i : Nat) (hi : i < n) :
    RandomProps.Out.at (snCoord G angDist hostRa hostDec sepKpc z n glob info).2.1 i =
      some (snCoord1 angDist (G.val glob i) (hostRa i) (hostDec i) (sepKpc i) (z i)).1 ∧
    RandomProps.Out.at (snCoord G angDist hostRa hostDec sepKpc z n glob info).2.2 i =
      some (snCoord1 angDist (G.val glob i) (hostRa i) (hostDec i) (sepKpc i) (z i)).2 := by
  unfold snCoord RandomProps.Out.at
  simp [List.getElem?_map, List.getElem?_range hi]

/-- C94: the position of every supernova is the point reached from its own host by walking, along a great circle, the angle that its own
physical separation subtends at its own redshift, starting with the bearing `2π u` for its own uniform draw `u`; hence its angular distance from the
host is that angle. Coordinates are in [0, 360) and [-90, 90]. For all hosts at a declination whose cosine is at least `10^-12` and at
the poles; closer to the poles see `C94_near_pole`. The angle is at most half a turn in the statements that need it. -/
theorem C94_position {ρ : Type} (G : RStream ρ ℝ) (angDist : ℝ → ℝ) (hostRa hostDec sepKpc z : Nat → ℝ) (n : Nat) (glob : ρ) (info : Option ρ) (i : Nat)
    (hi : i < n) (hz : 0 < angDist (z i)) (hd : 1 / 10 ^ 12 ≤ Real.cos (rad (hostDec i)) ∨ Real.cos (rad (hostDec i)) = 0) (h0 : 0 ≤ sepKpc i)
    (hpi : sepKpc i / 1000 ≤ Real.pi * angDist (z i)) :
    ∃ ra dec θ, RandomProps.Out.at (snCoord G angDist hostRa hostDec sepKpc z n glob info).2.1 i = some ra ∧
      RandomProps.Out.at (snCoord G angDist hostRa hostDec sepKpc z n glob info).2.2 i = some dec ∧
      0 ≤ ra ∧ ra < 360 ∧ -90 ≤ dec ∧ dec ≤ 90 ∧
      θ * angDist (z i) = sepKpc i / 1000 ∧
      dir ra dec = walk (hostRa i) (hostDec i) (2 * Real.pi * G.val glob i) θ ∧
      angle (dir (hostRa i) (hostDec i)) (dir ra dec) = θ := by
  obtain ⟨e1, e2⟩ := coord_at G angDist hostRa hostDec sepKpc z n glob info i hi
  have ht0 : 0 ≤ angularSep angDist (sepKpc i) (z i) := by unfold angularSep; positivity
  have htp : angularSep angDist (sepKpc i) (z i) ≤ Real.pi := by
    unfold angularSep; rw [div_le_iff₀ hz]; exact hpi
  have hw : dir (snCoord1 angDist (G.val glob i) (hostRa i) (hostDec i) (sepKpc i) (z i)).1
      (snCoord1 angDist (G.val glob i) (hostRa i) (hostDec i) (sepKpc i) (z i)).2 =
      walk (hostRa i) (hostDec i) (2 * Real.pi * G.val glob i) (angularSep angDist (sepKpc i) (z i)) := by
    unfold snCoord1
    rcases hd with hd | hd
    · exact offset_walk _ _ _ _ hd
    · exact offset_pole _ _ _ _ hd ht0 htp
  refine ⟨_, _, angularSep angDist (sepKpc i) (z i), e1, e2, ?_, ?_, ?_, ?_, ?_, hw, ?_⟩
  · exact (wrap_range _).1
  · exact (wrap_range _).2
  · show -90 ≤ Real.arcsin _ * 180 / Real.pi
    rw [le_div_iff₀ Real.pi_pos]
    linarith [Real.neg_pi_div_two_le_arcsin (Real.sin (hostDec i * Real.pi / 180) * Real.cos (angularSep angDist (sepKpc i) (z i)) +
      Real.cos (hostDec i * Real.pi / 180) * Real.sin (angularSep angDist (sepKpc i) (z i)) * Real.cos (2 * Real.pi * G.val glob i))]
  · show Real.arcsin _ * 180 / Real.pi ≤ 90
    rw [div_le_iff₀ Real.pi_pos]
    linarith [Real.arcsin_le_pi_div_two (Real.sin (hostDec i * Real.pi / 180) * Real.cos (angularSep angDist (sepKpc i) (z i)) +
      Real.cos (hostDec i * Real.pi / 180) * Real.sin (angularSep angDist (sepKpc i) (z i)) * Real.cos (2 * Real.pi * G.val glob i))]
  · unfold angularSep; field_simp
  · rw [hw, angle, dot_walk, Real.arccos_cos ht0 htp]

/-- C94 for hosts within `10^-12` of a pole: the cosine of the distance from the host is right up to `2 * 10^-12`. -/
theorem C94_near_pole {ρ : Type} (G : RStream ρ ℝ) (angDist : ℝ → ℝ) (hostRa hostDec sepKpc z : Nat → ℝ) (n : Nat) (glob : ρ) (info : Option ρ) (i : Nat)
    (hi : i < n) (hz : 0 < angDist (z i)) (h0 : 0 ≤ Real.cos (rad (hostDec i))) (hd : Real.cos (rad (hostDec i)) < 1 / 10 ^ 12) :
    ∃ ra dec θ, RandomProps.Out.at (snCoord G angDist hostRa hostDec sepKpc z n glob info).2.1 i = some ra ∧
      RandomProps.Out.at (snCoord G angDist hostRa hostDec sepKpc z n glob info).2.2 i = some dec ∧
      θ * angDist (z i) = sepKpc i / 1000 ∧
      |dot (dir (hostRa i) (hostDec i)) (dir ra dec) - Real.cos θ| ≤ 2 / 10 ^ 12 := by
  obtain ⟨e1, e2⟩ := coord_at G angDist hostRa hostDec sepKpc z n glob info i hi
  refine ⟨_, _, angularSep angDist (sepKpc i) (z i), e1, e2, ?_, offset_near_pole _ _ _ _ h0 hd⟩
  unfold angularSep; field_simp

/-- C94: successive calls continue the draws. With a generator whose state after `n` draws gives the following ones, the positions of `n + m` hosts in
one call are those of the first `n` in one call and of the other `m` in the next. -/
theorem C94_successive {ρ : Type} (G : RStream ρ ℝ) (hG : ∀ g k i, G.val (G.adv g k) i = G.val g (k + i)) (angDist : ℝ → ℝ) (hostRa hostDec sepKpc z : Nat → ℝ)
    (n m : Nat) (glob : ρ) (info : Option ρ) (i : Nat) :
    (i < n → RandomProps.Out.at (snCoord G angDist hostRa hostDec sepKpc z (n + m) glob info).2.1 i =
        RandomProps.Out.at (snCoord G angDist hostRa hostDec sepKpc z n glob info).2.1 i ∧
      RandomProps.Out.at (snCoord G angDist hostRa hostDec sepKpc z (n + m) glob info).2.2 i =
        RandomProps.Out.at (snCoord G angDist hostRa hostDec sepKpc z n glob info).2.2 i) ∧
    (i < m → ∃ next, (snCoord G angDist hostRa hostDec sepKpc z n glob info).1 = next ∧
      RandomProps.Out.at (snCoord G angDist hostRa hostDec sepKpc z (n + m) glob info).2.1 (n + i) =
        RandomProps.Out.at (snCoord G angDist (fun j => hostRa (n + j)) (fun j => hostDec (n + j)) (fun j => sepKpc (n + j)) (fun j => z (n + j)) m next info).2.1 i ∧
      RandomProps.Out.at (snCoord G angDist hostRa hostDec sepKpc z (n + m) glob info).2.2 (n + i) =
        RandomProps.Out.at (snCoord G angDist (fun j => hostRa (n + j)) (fun j => hostDec (n + j)) (fun j => sepKpc (n + j)) (fun j => z (n + j)) m next info).2.2 i) := by
  constructor
  · intro h
    obtain ⟨a, b⟩ := coord_at G angDist hostRa hostDec sepKpc z (n + m) glob info i (by omega)
    obtain ⟨c, d⟩ := coord_at G angDist hostRa hostDec sepKpc z n glob info i h
    exact ⟨a.trans c.symm, b.trans d.symm⟩
  · intro h
    refine ⟨_, rfl, ?_⟩
    obtain ⟨a, b⟩ := coord_at G angDist hostRa hostDec sepKpc z (n + m) glob info (n + i) (by omega)
    obtain ⟨c, d⟩ := coord_at G angDist (fun j => hostRa (n + j)) (fun j => hostDec (n + j)) (fun j => sepKpc (n + j)) (fun j => z (n + j)) m
      (snCoord G angDist hostRa hostDec sepKpc z n glob info).1 info i h
    have hg : G.val (snCoord G angDist hostRa hostDec sepKpc z n glob info).1 i = G.val glob (n + i) := hG glob n i
    rw [hg] at c d
    exact ⟨a.trans c.symm, b.trans d.symm⟩

/-- A host at declination 0 at a distance of 1 Mpc, 1 kpc away from the supernova, meets the hypotheses: the distance is a milliradian. -/
example {ρ : Type} (G : RStream ρ ℝ) (glob : ρ) : ∃ ra dec,
    RandomProps.Out.at (snCoord G (fun _ => 1) (fun _ => 10) (fun _ => 0) (fun _ => 1) (fun _ => 0.1) 3 glob none).2.1 2 = some ra ∧
    RandomProps.Out.at (snCoord G (fun _ => 1) (fun _ => 10) (fun _ => 0) (fun _ => 1) (fun _ => 0.1) 3 glob none).2.2 2 = some dec ∧
    angle (dir 10 0) (dir ra dec) = 1 / 1000 := by
  obtain ⟨ra, dec, θ, h1, h2, -, -, -, -, h3, -, h4⟩ := C94_position G (fun _ => 1) (fun _ => 10) (fun _ => 0) (fun _ => 1) (fun _ => 0.1) 3 glob none 2
    (by norm_num) (by norm_num) (Or.inl (by norm_num [rad])) (by norm_num) (by have := Real.pi_gt_three; linarith)
  refine ⟨ra, dec, h1, h2, ?_⟩
  rw [h4]
  linarith

/-- C94 fails for the generator: what is passed as `rng_info` has no influence, and with the same generator passed two global states whose first
draws are 0 (north) and 1/2 (south) give different declinations. -/
theorem C94_generator_counterexample {ρ : Type} (G : RStream ρ ℝ) (a b : ρ) (ha : G.val a 0 = 0) (hb : G.val b 0 = 1 / 2) :
    (∀ (angDist : ℝ → ℝ) (hostRa hostDec sepKpc z : Nat → ℝ) (n : Nat) (glob : ρ) (g g' : Option ρ),
      snCoord G angDist hostRa hostDec sepKpc z n glob g = snCoord G angDist hostRa hostDec sepKpc z n glob g') ∧
    ∀ g : ρ, (snCoord G (fun _ => 1) (fun _ => 0) (fun _ => 0) (fun _ => 1000) (fun _ => 0) 2 a (some g)).2.2 ≠
      (snCoord G (fun _ => 1) (fun _ => 0) (fun _ => 0) (fun _ => 1000) (fun _ => 0) 2 b (some g)).2.2 := by
  refine ⟨fun _ _ _ _ _ _ _ _ _ => rfl, ?_⟩
  intro g h
  have h' := congrArg (fun o => RandomProps.Out.at o 0) h
  rw [(coord_at G _ _ _ _ _ 2 a (some g) 0 (by norm_num)).2, (coord_at G _ _ _ _ _ 2 b (some g) 0 (by norm_num)).2, ha, hb] at h'
  injection h' with h'
  unfold snCoord1 offsetBy angularSep at h'
  simp only [mul_zero, zero_mul, zero_div, Real.sin_zero, Real.cos_zero, one_mul, zero_add, mul_one] at h'
  rw [show 2 * Real.pi * (1 / 2) = Real.pi by ring, Real.cos_pi, div_self (by norm_num : (1000:ℝ) ≠ 0), div_one] at h'
  have hpos : 0 < Real.arcsin (Real.sin 1) := by
    rw [Real.arcsin_pos]
    exact Real.sin_pos_of_pos_of_lt_pi one_pos (by linarith [Real.pi_gt_three])
  rw [mul_neg, mul_one, Real.arcsin_neg] at h'
  have hp := Real.pi_pos
  have : Real.arcsin (Real.sin 1) * 180 / Real.pi = 0 := by linarith [neg_div Real.pi (Real.arcsin (Real.sin 1) * 180), neg_mul (Real.arcsin (Real.sin 1)) 180, h', (by ring : -Real.arcsin (Real.sin 1) * 180 / Real.pi = -(Real.arcsin (Real.sin 1) * 180 / Real.pi))]
  have : 0 < Real.arcsin (Real.sin 1) * 180 / Real.pi := by positivity
  linarith

/-- C94 fails for one sample: the outputs are arrays of one number, not numbers as those of the other nodes. -/
theorem C94_single_counterexample {ρ : Type} (G : RStream ρ ℝ) (angDist : ℝ → ℝ) (hostRa hostDec sepKpc z : Nat → ℝ) (glob : ρ) (info : Option ρ) :
    ∃ ra dec, (snCoord G angDist hostRa hostDec sepKpc z 1 glob info).2 = (.many [ra], .many [dec]) :=
  ⟨_, _, rfl⟩

/-- C94 and C95 fail for constants that are not floats: a Hubble constant given as an integer is rejected as not constant. -/
theorem C94_integer_counterexample (k : Int) (om : CosmoArg) : cosmoArgs (.int k) om = .error .valueError ∧ cosmoArgs om (.int k) = .error .valueError := by
  constructor
  · rfl
  · cases om <;> rfl

/-! ## C95: distances -/

/-- C95: constants given as floats reach the cosmology in their own places, anything else is rejected. -/
theorem C95_constants (h0 om : CosmoArg) :
    (∀ a b, h0 = .float a → om = .float b → cosmoArgs h0 om = .ok (a, b)) ∧
    ((∃ e, cosmoArgs h0 om = .error e) ↔ (∀ a, h0 ≠ .float a) ∨ ∀ b, om ≠ .float b) := by
  cases h0 <;> cases om <;> simp [cosmoArgs]

/-- C95: the distance modulus determines the luminosity distance (10 pc at modulus 0, in Mpc), grows with it, and the amplitude of a supernova
computed from it obeys the inverse square law: `x0 d_L^2` does not depend on the redshift. -/
theorem C95_inverse_square (lumDist : ℝ → ℝ) (z z' x1 c alpha beta mAbs : ℝ) (hz : 0 < lumDist z) (hz' : 0 < lumDist z') :
    (10:ℝ) ^ (distmod lumDist z / 5) / 10 ^ 5 = lumDist z ∧
    (distmod lumDist z < distmod lumDist z' ↔ lumDist z < lumDist z') ∧
    Salt2.x0FromDistmod (distmod lumDist z) x1 c alpha beta mAbs * lumDist z ^ 2 =
      Salt2.x0FromDistmod (distmod lumDist z') x1 c alpha beta mAbs * lumDist z' ^ 2 := by
  have key : ∀ w, 0 < lumDist w → Salt2.x0FromDistmod (distmod lumDist w) x1 c alpha beta mAbs * lumDist w ^ 2 =
      (10:ℝ) ^ (-(4/10:ℝ) * (25 - alpha * x1 + beta * c + mAbs - 10.635)) := by
    intro w hw
    have h : lumDist w ^ 2 = (10:ℝ) ^ (2 * Real.logb 10 (lumDist w)) := by
      rw [mul_comm, Real.rpow_mul (by norm_num), Real.rpow_logb (by norm_num) (by norm_num) hw]
      norm_num
    unfold Salt2.x0FromDistmod distmod
    rw [abs_of_pos hw, h, ← Real.rpow_add (by norm_num)]
    congr 1
    ring
  refine ⟨?_, ?_, by rw [key z hz, key z' hz']⟩
  · unfold distmod
    rw [abs_of_pos hz, show (5 * Real.logb 10 (lumDist z) + 25) / 5 = Real.logb 10 (lumDist z) + 5 by ring, Real.rpow_add (by norm_num),
      Real.rpow_logb (by norm_num) (by norm_num) hz]
    norm_num
  · unfold distmod
    rw [abs_of_pos hz, abs_of_pos hz']
    constructor
    · intro h
      exact (Real.logb_lt_logb_iff (by norm_num : (1:ℝ) < 10) hz hz').mp (by linarith)
    · intro h
      have := (Real.logb_lt_logb_iff (by norm_num : (1:ℝ) < 10) hz hz').mpr h
      linarith

end LCL.SnCoordProps
