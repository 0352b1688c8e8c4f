import Verif.Spec.Footprint
import Mathlib.Tactic.Linarith
import Mathlib.Tactic.FieldSimp
import Mathlib.Tactic.Ring

/-!
# Property C53: detector footprints
-/

namespace LCL.FootprintProps
open LCL LCL.FootprintSpec Real

/-! ## Shapes -/

theorem fit_ok {shape : List Nat} {a : NpArg} (ha : Proper a) (hf : Fits shape a) :
    ∃ b, fitShape shape a.atleast1d = .ok b ∧ b.data.length = shape.prod ∧
      ∀ (i : Nat) x, i < shape.prod → Paired shape a i x → b.data[i]? = some x := by
  unfold fitShape
  by_cases h : a.atleast1d.shape = shape
  · rw [if_pos h]
    refine ⟨_, rfl, by rw [ha, h], ?_⟩
    rintro i x _ (⟨_, h2⟩ | ⟨h2, _⟩)
    · exact h2
    · exact absurd h h2
  · have h1 : a.atleast1d.shape = [1] := hf.resolve_left h
    rw [if_neg h, if_neg (not_not.2 h1)]
    refine ⟨_, rfl, by simp, ?_⟩
    rintro i x hi (⟨h2, _⟩ | ⟨_, _, h3⟩)
    · exact absurd h2 h
    · dsimp only
      rw [List.getElem?_replicate_of_lt hi]
      congr 1
      cases hd : a.atleast1d.data with
      | nil => rw [hd] at h3; cases h3
      | cons y l => rw [hd] at h3; injection h3

theorem fit_error {shape : List Nat} {a : NpArg} (hf : ¬ Fits shape a) : fitShape shape a.atleast1d = .error .valueError := by
  unfold fitShape
  rw [if_neg (fun h => hf (Or.inl h)), if_pos (fun h => hf (Or.inr h))]

theorem all_spec (fp : Footprint) : ∀ (ras decs as ds : List ℝ) (r : Option (List ℝ)) (n : Nat), ras.length = n → decs.length = n → as.length = n →
    ds.length = n → (∀ l, r = some l → l.length = n) →
    (fp.containsAll ras decs as ds r).length = n ∧
    ∀ (i : Nat) x y a d, ras[i]? = some x → decs[i]? = some y → as[i]? = some a → ds[i]? = some d →
      (r = none → (fp.containsAll ras decs as ds r)[i]? = some (fp.containsAt x y a d none)) ∧
      (∀ l q, r = some l → l[i]? = some q → (fp.containsAll ras decs as ds r)[i]? = some (fp.containsAt x y a d (some q)))
  | [], decs, as, ds, r, n, h1, _, _, _, _ => by
    subst h1
    refine ⟨by simp [Footprint.containsAll], ?_⟩
    intro i x y a d h
    simp at h
  | ra :: ras, [], _, _, _, n, h1, h2, _, _, _ => by subst h1; simp at h2
  | ra :: ras, dec :: decs, [], _, _, n, h1, _, h3, _, _ => by subst h1; simp at h3
  | ra :: ras, dec :: decs, a :: as, [], _, n, h1, _, _, h4, _ => by subst h1; simp at h4
  | ra :: ras, dec :: decs, a :: as, d :: ds, none, n, h1, h2, h3, h4, h5 => by
    subst h1
    obtain ⟨e1, e2⟩ := all_spec fp ras decs as ds none ras.length rfl (by simpa using h2) (by simpa using h3) (by simpa using h4) (by simp)
    refine ⟨by simp [Footprint.containsAll, e1], ?_⟩
    intro i x y a' d' k1 k2 k3 k4
    refine ⟨fun _ => ?_, by simp⟩
    cases i with
    | zero =>
      simp only [List.getElem?_cons_zero, Option.some.injEq] at k1 k2 k3 k4
      subst k1 k2 k3 k4
      rfl
    | succ i =>
      simp only [List.getElem?_cons_succ] at k1 k2 k3 k4
      exact (e2 i x y a' d' k1 k2 k3 k4).1 rfl
  | ra :: ras, dec :: decs, a :: as, d :: ds, some [], n, h1, _, _, _, h5 => by
    subst h1
    have := h5 [] rfl
    simp at this
  | ra :: ras, dec :: decs, a :: as, d :: ds, some (q :: qs), n, h1, h2, h3, h4, h5 => by
    subst h1
    have h5' := h5 _ rfl
    obtain ⟨e1, e2⟩ := all_spec fp ras decs as ds (some qs) ras.length rfl (by simpa using h2) (by simpa using h3) (by simpa using h4)
      (by intro l hl; injection hl with hl; subst hl; simpa using h5')
    refine ⟨by simp [Footprint.containsAll, e1], ?_⟩
    intro i x y a' d' k1 k2 k3 k4
    refine ⟨by simp, ?_⟩
    intro l q' hl hq
    injection hl with hl
    subst hl
    cases i with
    | zero =>
      simp only [List.getElem?_cons_zero, Option.some.injEq] at k1 k2 k3 k4 hq
      subst k1 k2 k3 k4 hq
      rfl
    | succ i =>
      simp only [List.getElem?_cons_succ] at k1 k2 k3 k4 hq
      exact (e2 i x y a' d' k1 k2 k3 k4).2 qs q' rfl hq

/-- C53 (shapes). `contains` of any arguments: when the coordinates differ in shape, or a centre coordinate or the rotation has neither
the shape of the points nor a single entry, ValueError is raised. Otherwise there is one truth value per point, in order, which is the
membership of that point alone with its own, or the common, centre and rotation; a number (instead of an array) gives one truth value,
an array an array of its shape. -/
theorem C53_shapes (fp : Footprint) (ra dec ra0 dec0 : NpArg) (rotation : Option NpArg) (h1 : Proper ra) (h2 : Proper dec) (h3 : Proper ra0)
    (h4 : Proper dec0) (h5 : ∀ r, rotation = some r → Proper r) :
    ((dec.atleast1d.shape ≠ ra.atleast1d.shape ∨ ¬ Fits ra.atleast1d.shape ra0 ∨ ¬ Fits ra.atleast1d.shape dec0 ∨
        (∃ r, rotation = some r ∧ ¬ Fits ra.atleast1d.shape r)) → fp.contains ra dec ra0 dec0 rotation = .error .valueError) ∧
    (dec.atleast1d.shape = ra.atleast1d.shape → Fits ra.atleast1d.shape ra0 → Fits ra.atleast1d.shape dec0 →
        (∀ r, rotation = some r → Fits ra.atleast1d.shape r) →
      ∃ l : List Bool, l.length = ra.atleast1d.shape.prod ∧
        (ra.isScalar = false → fp.contains ra dec ra0 dec0 rotation = .ok (.many ra.atleast1d.shape l)) ∧
        (ra.isScalar = true → ∃ b, l = [b] ∧ fp.contains ra dec ra0 dec0 rotation = .ok (.one b)) ∧
        ∀ (i : Nat) x y a d r, ra.atleast1d.data[i]? = some x → dec.atleast1d.data[i]? = some y → Paired ra.atleast1d.shape ra0 i a →
          Paired ra.atleast1d.shape dec0 i d → PairedRot ra.atleast1d.shape rotation i r → l[i]? = some (fp.containsAt x y a d r)) := by
  constructor
  · intro h
    unfold Footprint.contains
    dsimp only
    by_cases hs : ra.atleast1d.shape ≠ dec.atleast1d.shape
    · rw [if_pos hs]
    rw [if_neg hs]
    by_cases ha : Fits ra.atleast1d.shape ra0
    · obtain ⟨a, ea, _⟩ := fit_ok h3 ha
      rw [ea]
      dsimp only
      by_cases hd : Fits ra.atleast1d.shape dec0
      · obtain ⟨d, ed, _⟩ := fit_ok h4 hd
        rw [ed]
        dsimp only
        rcases h with h | h | h | ⟨r, hr, hnf⟩
        · exact absurd (fun e => h e.symm) hs
        · exact absurd ha h
        · exact absurd hd h
        · subst hr
          unfold fitRotation
          dsimp only
          rw [fit_error hnf]
      · rw [fit_error hd]
    · rw [fit_error ha]
  · intro hs ha hd hr
    obtain ⟨a, ea, la, pa⟩ := fit_ok h3 ha
    obtain ⟨d, ed, ld, pd⟩ := fit_ok h4 hd
    have hrot : ∃ r, fitRotation ra.atleast1d.shape rotation = .ok r ∧ (∀ l, r = some l → l.length = ra.atleast1d.shape.prod) ∧
        ∀ (i : Nat) q, i < ra.atleast1d.shape.prod → PairedRot ra.atleast1d.shape rotation i q →
          (r = none ∧ q = none) ∨ ∃ l x, r = some l ∧ q = some x ∧ l[i]? = some x := by
      cases rotation with
      | none =>
        refine ⟨none, rfl, by simp, ?_⟩
        intro i q _ hq
        cases q with
        | none => exact Or.inl ⟨rfl, rfl⟩
        | some x => exact absurd hq (by simp [PairedRot])
      | some r =>
        obtain ⟨b, eb, lb, pb⟩ := fit_ok (h5 r rfl) (hr r rfl)
        refine ⟨some b.data, by unfold fitRotation; dsimp only; rw [eb], ?_, ?_⟩
        · intro l hl
          injection hl with hl
          subst hl
          exact lb
        · intro i q hi hq
          cases q with
          | none => exact absurd hq (by simp [PairedRot])
          | some x => exact Or.inr ⟨b.data, x, rfl, rfl, pb i x hi hq⟩
    obtain ⟨r, er, lr, pr⟩ := hrot
    obtain ⟨a1, a2⟩ := all_spec fp ra.atleast1d.data dec.atleast1d.data a.data d.data r ra.atleast1d.shape.prod h1 (by rw [h2, hs]) la ld lr
    have hrun : fp.contains ra dec ra0 dec0 rotation = packResult ra.isScalar ra.atleast1d.shape
        (fp.containsAll ra.atleast1d.data dec.atleast1d.data a.data d.data r) := by
      unfold Footprint.contains
      dsimp only
      rw [if_neg (not_not.2 hs.symm), ea]
      dsimp only
      rw [ed]
      dsimp only
      rw [er]
    refine ⟨_, a1, ?_, ?_, ?_⟩
    · intro h
      rw [hrun, h]
      rfl
    · intro h
      cases ra with
      | scalar x =>
        rw [hrun]
        obtain ⟨b, hb⟩ := List.length_eq_one_iff.1 (a1.trans (by rfl))
        exact ⟨b, hb, by rw [hb]; rfl⟩
      | array q => cases h
    · intro i x y a' d' q k1 k2 k3 k4 k5
      have hi : i < ra.atleast1d.shape.prod := by
        rw [← h1]
        exact (List.getElem?_eq_some_iff.1 k1).1
      rcases pr i q hi k5 with ⟨r1, r2⟩ | ⟨l, z, r1, r2, r3⟩
      · subst r2
        exact (a2 i x y a' d' k1 k2 (pa i a' hi k3) (pd i d' hi k4)).1 r1
      · subst r2
        exact (a2 i x y a' d' k1 k2 (pa i a' hi k3) (pd i d' hi k4)).2 l z r1 r3

/-! ## Geometry -/

theorem toCart_direction (ra dec : ℝ) : ObsTable.toCart ra dec = direction ra dec := rfl

/-- The detector frame coordinates of a direction. -/
theorem skyOffset_eq (v : ℝ × ℝ × ℝ) (ra0 dec0 rotation : ℝ) :
    skyOffset v ra0 dec0 rotation = (dot v (direction ra0 dec0), dot v (detX ra0 dec0 rotation), dot v (detY ra0 dec0 rotation)) := by
  unfold skyOffset rotX rotY rotZ dot detX detY lin east north direction
  simp only [cos_neg, sin_neg, Prod.mk.injEq]
  refine ⟨?_, ?_, ?_⟩ <;> ring

theorem direction_unit (ra dec : ℝ) : dot (direction ra dec) (direction ra dec) = 1 := by
  unfold dot direction
  dsimp only
  have h1 := sin_sq_add_cos_sq (dec * (π / 180))
  have h2 := sin_sq_add_cos_sq (ra * (π / 180))
  calc _ = cos (dec * (π / 180)) ^ 2 * (sin (ra * (π / 180)) ^ 2 + cos (ra * (π / 180)) ^ 2) + sin (dec * (π / 180)) ^ 2 := by ring
    _ = 1 := by rw [h2]; linarith

theorem rotZ_dot (a : ℝ) (v : ℝ × ℝ × ℝ) : dot (rotZ a v) (rotZ a v) = dot v v := by
  unfold dot rotZ
  dsimp only
  have h := sin_sq_add_cos_sq a
  linear_combination (v.1 ^ 2 + v.2.1 ^ 2) * h

theorem rotY_dot (a : ℝ) (v : ℝ × ℝ × ℝ) : dot (rotY a v) (rotY a v) = dot v v := by
  unfold dot rotY
  dsimp only
  have h := sin_sq_add_cos_sq a
  linear_combination (v.1 ^ 2 + v.2.2 ^ 2) * h

theorem rotX_dot (a : ℝ) (v : ℝ × ℝ × ℝ) : dot (rotX a v) (rotX a v) = dot v v := by
  unfold dot rotX
  dsimp only
  have h := sin_sq_add_cos_sq a
  linear_combination (v.2.1 ^ 2 + v.2.2 ^ 2) * h

theorem skyOffset_dot (v : ℝ × ℝ × ℝ) (ra0 dec0 rotation : ℝ) :
    dot (skyOffset v ra0 dec0 rotation) (skyOffset v ra0 dec0 rotation) = dot v v := by
  unfold skyOffset
  rw [rotX_dot, rotY_dot, rotZ_dot]

theorem deg_rad (x : ℝ) : x * (180 / π) * (π / 180) = x := by
  have := pi_ne_zero
  field_simp

theorem full_turn : (360 : ℝ) * (π / 180) = 2 * π := by ring

theorem lon_angle (v : ℝ × ℝ × ℝ) :
    cos (centerLon (lonDeg v) * (π / 180)) = cos (Complex.arg ⟨v.1, v.2.1⟩) ∧ sin (centerLon (lonDeg v) * (π / 180)) = sin (Complex.arg ⟨v.1, v.2.1⟩) := by
  have h1 : ∀ x : ℝ, cos ((x * (180 / π) + 360) * (π / 180)) = cos x ∧ sin ((x * (180 / π) + 360) * (π / 180)) = sin x := by
    intro x
    rw [add_mul, deg_rad, full_turn]
    exact ⟨cos_add_two_pi x, sin_add_two_pi x⟩
  have h2 : ∀ x : ℝ, cos ((x - 360) * (π / 180)) = cos (x * (π / 180)) ∧ sin ((x - 360) * (π / 180)) = sin (x * (π / 180)) := by
    intro x
    rw [sub_mul, full_turn]
    exact ⟨cos_sub_two_pi _, sin_sub_two_pi _⟩
  have h3 : cos (lonDeg v * (π / 180)) = cos (Complex.arg ⟨v.1, v.2.1⟩) ∧ sin (lonDeg v * (π / 180)) = sin (Complex.arg ⟨v.1, v.2.1⟩) := by
    unfold lonDeg
    dsimp only
    split
    · exact h1 _
    · rw [deg_rad]; exact ⟨rfl, rfl⟩
  unfold centerLon
  split
  · rw [(h2 _).1, (h2 _).2]; exact h3
  · exact h3

theorem lat_angle (v : ℝ × ℝ × ℝ) : centerLat (latDeg v) * (π / 180) = Complex.arg ⟨sqrt (v.1 ^ 2 + v.2.1 ^ 2), v.2.2⟩ := by
  have h : ¬ 90 < latDeg v := by
    unfold latDeg
    have h1 : Complex.arg ⟨sqrt (v.1 ^ 2 + v.2.1 ^ 2), v.2.2⟩ ≤ π / 2 :=
      (abs_le.1 (Complex.abs_arg_le_pi_div_two_iff.2 (sqrt_nonneg (v.1 ^ 2 + v.2.1 ^ 2)))).2
    have h2 := pi_pos
    have h3 : Complex.arg ⟨sqrt (v.1 ^ 2 + v.2.1 ^ 2), v.2.2⟩ * (180 / π) ≤ π / 2 * (180 / π) := mul_le_mul_of_nonneg_right h1 (by positivity)
    have h4 : π / 2 * (180 / π) = 90 := by field_simp; norm_num
    linarith
  unfold centerLat
  rw [if_neg h]
  unfold latDeg
  exact deg_rad _

theorem norm_mk (a b : ℝ) : ‖(⟨a, b⟩ : ℂ)‖ = sqrt (a ^ 2 + b ^ 2) := by
  rw [Complex.norm_def, Complex.normSq_mk]
  congr 1
  ring

/-- Longitude and latitude lead back to the vector. -/
theorem toCart_rotate (v : ℝ × ℝ × ℝ) (hv : dot v v = 1) : ObsTable.toCart (centerLon (lonDeg v)) (centerLat (latDeg v)) = v := by
  obtain ⟨x, y, z⟩ := v
  have hv' : x ^ 2 + y ^ 2 + z ^ 2 = 1 := by
    rw [← hv]; unfold dot; ring
  have hr : sqrt (x ^ 2 + y ^ 2) ^ 2 = x ^ 2 + y ^ 2 := sq_sqrt (by positivity)
  obtain ⟨l1, l2⟩ := lon_angle (x, y, z)
  have l3 := lat_angle (x, y, z)
  unfold ObsTable.toCart
  dsimp only at l1 l2 l3 ⊢
  rw [l1, l2, l3]
  have hn : ‖(⟨sqrt (x ^ 2 + y ^ 2), z⟩ : ℂ)‖ = 1 := by
    rw [norm_mk, hr, hv', sqrt_one]
  have hne : (⟨sqrt (x ^ 2 + y ^ 2), z⟩ : ℂ) ≠ 0 := by
    intro h
    rw [h, norm_zero] at hn
    exact zero_ne_one hn
  have c1 : cos (Complex.arg ⟨sqrt (x ^ 2 + y ^ 2), z⟩) = sqrt (x ^ 2 + y ^ 2) := by
    rw [Complex.cos_arg hne, hn, div_one]
  have s1 : sin (Complex.arg ⟨sqrt (x ^ 2 + y ^ 2), z⟩) = z := by
    rw [Complex.sin_arg, hn, div_one]
  rw [c1, s1]
  by_cases h0 : sqrt (x ^ 2 + y ^ 2) = 0
  · have hxy : x ^ 2 + y ^ 2 = 0 := by rw [← hr, h0]; ring
    have hx : x = 0 := by nlinarith [sq_nonneg x, sq_nonneg y]
    have hy : y = 0 := by nlinarith [sq_nonneg x, sq_nonneg y]
    rw [h0, hx, hy]
    simp
  · have hne2 : (⟨x, y⟩ : ℂ) ≠ 0 := by
      intro h
      apply h0
      rw [← norm_mk, h, norm_zero]
    rw [Complex.cos_arg hne2, Complex.sin_arg, norm_mk]
    simp only [Prod.mk.injEq, and_true]
    constructor <;> field_simp

/-- Longitude and latitude of a point in the detector frame, as a direction: its components along the direction of the centre and along
the detector's axes. -/
theorem rotate_direction (ra dec ra0 dec0 rotation : ℝ) :
    direction (rotateToCenter ra dec ra0 dec0 rotation).1 (rotateToCenter ra dec ra0 dec0 rotation).2 =
      (dot (direction ra dec) (direction ra0 dec0), dot (direction ra dec) (detX ra0 dec0 rotation), dot (direction ra dec) (detY ra0 dec0 rotation)) := by
  rw [← skyOffset_eq]
  exact toCart_rotate _ ((skyOffset_dot _ _ _ _).trans (direction_unit ra dec))

/-- C53 (rotated into the detector frame). The offsets `rotate_to_center` computes are the longitude (in `[-180, 180]`) and latitude
(in `[-90, 90]`) of the point in the frame whose axes are the direction of the centre and the detector's axes. -/
theorem C53_frame (ra dec ra0 dec0 rotation : ℝ) :
    direction (rotateToCenter ra dec ra0 dec0 rotation).1 (rotateToCenter ra dec ra0 dec0 rotation).2 =
      (dot (direction ra dec) (direction ra0 dec0), dot (direction ra dec) (detX ra0 dec0 rotation), dot (direction ra dec) (detY ra0 dec0 rotation)) ∧
    |(rotateToCenter ra dec ra0 dec0 rotation).1| ≤ 180 ∧ |(rotateToCenter ra dec ra0 dec0 rotation).2| ≤ 90 := by
  refine ⟨rotate_direction ra dec ra0 dec0 rotation, ?_, ?_⟩
  · unfold rotateToCenter
    dsimp only
    generalize skyOffset _ _ _ _ = v
    have h1 := Complex.neg_pi_lt_arg ⟨v.1, v.2.1⟩
    have h2 := Complex.arg_le_pi ⟨v.1, v.2.1⟩
    have hp := pi_pos
    have e1 : -180 < Complex.arg ⟨v.1, v.2.1⟩ * (180 / π) := by
      have : -π * (180 / π) < Complex.arg ⟨v.1, v.2.1⟩ * (180 / π) := mul_lt_mul_of_pos_right h1 (by positivity)
      have e : -π * (180 / π) = -180 := by field_simp
      linarith
    have e2 : Complex.arg ⟨v.1, v.2.1⟩ * (180 / π) ≤ 180 := by
      have : Complex.arg ⟨v.1, v.2.1⟩ * (180 / π) ≤ π * (180 / π) := mul_le_mul_of_nonneg_right h2 (by positivity)
      have e : π * (180 / π) = 180 := by field_simp
      linarith
    unfold centerLon lonDeg
    dsimp only
    rw [abs_le]
    split <;> split <;> constructor <;> linarith
  · unfold rotateToCenter
    dsimp only
    generalize skyOffset _ _ _ _ = v
    have h := lat_angle v
    have h1 := abs_le.1 (Complex.abs_arg_le_pi_div_two_iff.2 (show 0 ≤ (⟨sqrt (v.1 ^ 2 + v.2.1 ^ 2), v.2.2⟩ : ℂ).re from sqrt_nonneg (v.1 ^ 2 + v.2.1 ^ 2)))
    have hp := pi_pos
    have e : centerLat (latDeg v) = Complex.arg ⟨sqrt (v.1 ^ 2 + v.2.1 ^ 2), v.2.2⟩ * (180 / π) := by
      rw [← h]; field_simp
    rw [e, abs_le]
    have k1 : -(π / 2) * (180 / π) ≤ Complex.arg ⟨sqrt (v.1 ^ 2 + v.2.1 ^ 2), v.2.2⟩ * (180 / π) := mul_le_mul_of_nonneg_right h1.1 (by positivity)
    have k2 : Complex.arg ⟨sqrt (v.1 ^ 2 + v.2.1 ^ 2), v.2.2⟩ * (180 / π) ≤ π / 2 * (180 / π) := mul_le_mul_of_nonneg_right h1.2 (by positivity)
    have e2 : π / 2 * (180 / π) = 90 := by field_simp; norm_num
    constructor <;> linarith

/-- C53 (membership). For a footprint with the default projection of scale `s` and any region: a point is contained exactly when it is
in front of the detector and its gnomonic projection onto the detector's axes, in pixels, is in the region. -/
theorem C53_membership (region : PixRegion) (s ra dec ra0 dec0 : ℝ) (rotation : Option ℝ) :
    (Footprint.mk (tanWcs s) region).containsAt ra dec ra0 dec0 rotation = true ↔
      0 < dot (direction ra dec) (direction ra0 dec0) ∧
      region.mem (dot (direction ra dec) (detX ra0 dec0 (rotation.getD 0)) / dot (direction ra dec) (direction ra0 dec0) * (180 / π) / s - 1 / 2,
        dot (direction ra dec) (detY ra0 dec0 (rotation.getD 0)) / dot (direction ra dec) (direction ra0 dec0) * (180 / π) / s - 1 / 2) = true := by
  unfold Footprint.containsAt
  dsimp only
  unfold tanWcs
  dsimp only
  rw [toCart_direction, rotate_direction]
  dsimp only
  by_cases h : dot (direction ra dec) (direction ra0 dec0) ≤ 0
  · rw [if_pos h]
    simp [not_lt.2 h]
  · rw [if_neg h]
    dsimp only
    have e : ∀ x : ℝ, x + 1 / 2 - 1 = x - 1 / 2 := fun x => by ring
    rw [e, e]
    exact ⟨fun k => ⟨not_le.1 h, k⟩, fun k => k.2⟩

/-- Membership depends on the point's components in the detector frame only. -/
theorem contains_congr (fp : Footprint) {ra dec ra0 dec0 ra' dec' ra0' dec0' : ℝ} {r r' : Option ℝ}
    (h1 : dot (direction ra' dec') (direction ra0' dec0') = dot (direction ra dec) (direction ra0 dec0))
    (h2 : dot (direction ra' dec') (detX ra0' dec0' (r'.getD 0)) = dot (direction ra dec) (detX ra0 dec0 (r.getD 0)))
    (h3 : dot (direction ra' dec') (detY ra0' dec0' (r'.getD 0)) = dot (direction ra dec) (detY ra0 dec0 (r.getD 0))) :
    fp.containsAt ra' dec' ra0' dec0' r' = fp.containsAt ra dec ra0 dec0 r := by
  unfold Footprint.containsAt rotateToCenter
  rw [skyOffset_eq, skyOffset_eq, toCart_direction, toCart_direction, h1, h2, h3]

/-- C53 (invariance). For every footprint, whatever its projection and region: moving the point and the detector (its centre and its
axes) by one and the same rigid motion of the sky does not change membership. -/
theorem C53_rigid (fp : Footprint) (Q : ℝ × ℝ × ℝ → ℝ × ℝ × ℝ) (hQ : ∀ u v, dot (Q u) (Q v) = dot u v)
    (ra dec ra0 dec0 ra' dec' ra0' dec0' : ℝ) (r r' : Option ℝ) (h1 : direction ra' dec' = Q (direction ra dec))
    (h2 : direction ra0' dec0' = Q (direction ra0 dec0)) (h3 : detX ra0' dec0' (r'.getD 0) = Q (detX ra0 dec0 (r.getD 0)))
    (h4 : detY ra0' dec0' (r'.getD 0) = Q (detY ra0 dec0 (r.getD 0))) :
    fp.containsAt ra' dec' ra0' dec0' r' = fp.containsAt ra dec ra0 dec0 r := by
  apply contains_congr
  · rw [h1, h2, hQ]
  · rw [h1, h3, hQ]
  · rw [h1, h4, hQ]

/-- The rigid motion by an angle (degrees) in right ascension. -/
noncomputable def turn (d : ℝ) (v : ℝ × ℝ × ℝ) : ℝ × ℝ × ℝ :=
  (cos (d * (π / 180)) * v.1 - sin (d * (π / 180)) * v.2.1, sin (d * (π / 180)) * v.1 + cos (d * (π / 180)) * v.2.1, v.2.2)

theorem turn_dot (d : ℝ) (u v : ℝ × ℝ × ℝ) : dot (turn d u) (turn d v) = dot u v := by
  unfold dot turn
  dsimp only
  have h := sin_sq_add_cos_sq (d * (π / 180))
  linear_combination (u.1 * v.1 + u.2.1 * v.2.1) * h

theorem turn_axes (d ra dec r : ℝ) : direction (ra + d) dec = turn d (direction ra dec) ∧ detX (ra + d) dec r = turn d (detX ra dec r) ∧
    detY (ra + d) dec r = turn d (detY ra dec r) := by
  unfold direction detX detY lin east north turn
  simp only [add_mul, cos_add, sin_add, Prod.mk.injEq]
  refine ⟨⟨?_, ?_, trivial⟩, ⟨?_, ?_, ?_⟩, ⟨?_, ?_, ?_⟩⟩ <;> first | trivial | ring

/-- C53 (invariance in right ascension): shifting the points and the centre by the same angle changes nothing; neither does a full turn
of the point, of the centre or of the detector. -/
theorem C53_shift (fp : Footprint) (d ra dec ra0 dec0 : ℝ) (r : Option ℝ) :
    fp.containsAt (ra + d) dec (ra0 + d) dec0 r = fp.containsAt ra dec ra0 dec0 r ∧
    fp.containsAt (ra + 360) dec ra0 dec0 r = fp.containsAt ra dec ra0 dec0 r ∧
    fp.containsAt ra dec (ra0 + 360) dec0 r = fp.containsAt ra dec ra0 dec0 r ∧
    (∀ q, fp.containsAt ra dec ra0 dec0 (some (q + 360)) = fp.containsAt ra dec ra0 dec0 (some q)) := by
  have hc : ∀ x : ℝ, cos ((x + 360) * (π / 180)) = cos (x * (π / 180)) := fun x => by rw [add_mul, full_turn, cos_add_two_pi]
  have hs : ∀ x : ℝ, sin ((x + 360) * (π / 180)) = sin (x * (π / 180)) := fun x => by rw [add_mul, full_turn, sin_add_two_pi]
  refine ⟨?_, ?_, ?_, ?_⟩
  · exact C53_rigid fp (turn d) (turn_dot d) _ _ _ _ _ _ _ _ r r (turn_axes d ra dec 0).1 (turn_axes d ra0 dec0 0).1
      (turn_axes d ra0 dec0 _).2.1 (turn_axes d ra0 dec0 _).2.2
  · have e : direction (ra + 360) dec = direction ra dec := by unfold direction; rw [hc, hs]
    apply contains_congr <;> rw [e]
  · have e1 : direction (ra0 + 360) dec0 = direction ra0 dec0 := by unfold direction; rw [hc, hs]
    have e2 : ∀ q, detX (ra0 + 360) dec0 q = detX ra0 dec0 q := fun q => by unfold detX east north; rw [hc, hs]
    have e3 : ∀ q, detY (ra0 + 360) dec0 q = detY ra0 dec0 q := fun q => by unfold detY east north; rw [hc, hs]
    apply contains_congr
    · rw [e1]
    · rw [e2]
    · rw [e3]
  · intro q
    have e2 : detX ra0 dec0 (q + 360) = detX ra0 dec0 q := by unfold detX; rw [hc, hs]
    have e3 : detY ra0 dec0 (q + 360) = detY ra0 dec0 q := by unfold detY; rw [hc, hs]
    apply contains_congr
    · rfl
    · exact congrArg _ e2
    · exact congrArg _ e3

/-- C53 (rotation). Rotating the detector rotates the point's offsets on it, by the same angle; the component along the direction of the
centre stays. -/
theorem C53_rotation (ra dec ra0 dec0 rotation : ℝ) :
    dot (direction ra dec) (detX ra0 dec0 rotation) =
      cos (rotation * (π / 180)) * dot (direction ra dec) (detX ra0 dec0 0) - sin (rotation * (π / 180)) * dot (direction ra dec) (detY ra0 dec0 0) ∧
    dot (direction ra dec) (detY ra0 dec0 rotation) =
      sin (rotation * (π / 180)) * dot (direction ra dec) (detX ra0 dec0 0) + cos (rotation * (π / 180)) * dot (direction ra dec) (detY ra0 dec0 0) := by
  unfold dot detX detY lin
  simp only [zero_mul, cos_zero, sin_zero]
  constructor <;> ring

/-- The components in the detector frame make up a unit vector. -/
theorem frame_unit (ra dec ra0 dec0 rotation : ℝ) :
    dot (direction ra dec) (direction ra0 dec0) ^ 2 + dot (direction ra dec) (detX ra0 dec0 rotation) ^ 2 +
      dot (direction ra dec) (detY ra0 dec0 rotation) ^ 2 = 1 := by
  have h := (skyOffset_dot (direction ra dec) ra0 dec0 rotation).trans (direction_unit ra dec)
  rw [skyOffset_eq] at h
  rw [← h]
  unfold dot
  ring

/-- C53 (distance). On the default projection the distance in pixels of a point from the centre is the tangent of their separation on the
sky, over the scale: it depends neither on the detector's rotation nor on where it points. Here `c` is the cosine of the separation. -/
theorem C53_distance (s ra dec ra0 dec0 rotation : ℝ) (hf : 0 < dot (direction ra dec) (direction ra0 dec0)) (x y : ℝ)
    (h : tanWcs s (rotateToCenter ra dec ra0 dec0 rotation).1 (rotateToCenter ra dec ra0 dec0 rotation).2 = some (x, y)) :
    (x + 1 / 2) ^ 2 + (y + 1 / 2) ^ 2 = (180 / π / s) ^ 2 * (1 / dot (direction ra dec) (direction ra0 dec0) ^ 2 - 1) := by
  unfold tanWcs at h
  dsimp only at h
  rw [toCart_direction, rotate_direction] at h
  dsimp only at h
  rw [if_neg (not_le.2 hf)] at h
  have hu := frame_unit ra dec ra0 dec0 rotation
  generalize dot (direction ra dec) (direction ra0 dec0) = X at *
  generalize dot (direction ra dec) (detX ra0 dec0 rotation) = Y at *
  generalize dot (direction ra dec) (detY ra0 dec0 rotation) = Z at *
  injection h with h
  injection h with hx hy
  subst hx hy
  have hX : X ≠ 0 := hf.ne'
  have e : 1 / X ^ 2 - 1 = (Y / X) ^ 2 + (Z / X) ^ 2 := by
    field_simp
    linarith
  rw [e]
  ring

/-! ## Rectangles -/

theorem centre_components (ra dec rotation : ℝ) : dot (direction ra dec) (direction ra dec) = 1 ∧ dot (direction ra dec) (detX ra dec rotation) = 0 ∧
    dot (direction ra dec) (detY ra dec rotation) = 0 := by
  have h := frame_unit ra dec ra dec rotation
  have h1 := direction_unit ra dec
  rw [h1] at h
  refine ⟨h1, ?_, ?_⟩ <;> nlinarith [sq_nonneg (dot (direction ra dec) (detX ra dec rotation)), sq_nonneg (dot (direction ra dec) (detY ra dec rotation))]

/-- C53 (rectangles). `from_rect` with positive sizes and a positive pixel scale is accepted; a point is in the footprint exactly when it
is in front of the detector and its projected offsets along the detector's axes, in degrees, are less than half the width and half the
height; so membership does not depend on the pixel scale. Other sizes or scales are rejected. -/
theorem C53_rectangle (width height : ℝ) (scale : Option ℝ) :
    (∀ s, scale = some s → 0 < width → 0 < height → 0 < s → ∃ fp, Footprint.fromRect width height scale = .ok fp ∧
      ∀ ra dec ra0 dec0 rotation, fp.containsAt ra dec ra0 dec0 rotation = true ↔
        0 < dot (direction ra dec) (direction ra0 dec0) ∧
        |dot (direction ra dec) (detX ra0 dec0 (rotation.getD 0)) / dot (direction ra dec) (direction ra0 dec0) * (180 / π)| < width / 2 ∧
        |dot (direction ra dec) (detY ra0 dec0 (rotation.getD 0)) / dot (direction ra dec) (direction ra0 dec0) * (180 / π)| < height / 2) ∧
    ((width ≤ 0 ∨ height ≤ 0 ∨ scale = none ∨ ∃ s, scale = some s ∧ s ≤ 0) → Footprint.fromRect width height scale = .error .valueError) := by
  constructor
  · intro s hs hw hh hs0
    subst hs
    have hbox : ∀ x : ℝ, 0 < x → ⌊-(1 / 2) - x / s / 2 + 1 / 2⌋ ≤ 0 ∧ 0 ≤ ⌈-(1 / 2) + x / s / 2 + 1 / 2⌉ := by
      intro x hx
      have hp : 0 < x / s / 2 := by positivity
      constructor
      · rw [show (-(1 / 2) - x / s / 2 + 1 / 2 : ℝ) = -(x / s / 2) by ring]
        have : ⌊-(x / s / 2)⌋ < 1 := Int.floor_lt.2 (by push_cast; linarith)
        omega
      · rw [show (-(1 / 2) + x / s / 2 + 1 / 2 : ℝ) = x / s / 2 by ring]
        exact (Int.ceil_pos.2 hp).le
    refine ⟨⟨tanWcs s, rectPixels (-(1 / 2)) (-(1 / 2)) (width / s) (height / s)⟩, ?_, ?_⟩
    · unfold Footprint.fromRect
      rw [if_neg (not_or.2 ⟨not_le.2 hw, not_le.2 hh⟩)]
      dsimp only
      unfold Footprint.init
      have hc : chooseWcs none (some s) = .ok (tanWcs s) := by
        unfold chooseWcs
        dsimp only
        rw [if_neg (not_le.2 hs0)]
      rw [hc]
      dsimp only [AnyRegion.toPix]
      rw [if_pos]
      exact ⟨(hbox width hw).1, (hbox width hw).2, (hbox height hh).1, (hbox height hh).2⟩
    · intro ra dec ra0 dec0 rotation
      rw [C53_membership]
      unfold rectPixels
      dsimp only
      rw [decide_eq_true_iff]
      have key : ∀ q w : ℝ, |q / s - 1 / 2 - -(1 / 2)| < w / s / 2 ↔ |q| < w / 2 := by
        intro q w
        rw [show q / s - 1 / 2 - -(1 / 2) = q / s by ring, abs_div, abs_of_pos hs0, div_lt_iff₀ hs0]
        rw [show w / s / 2 * s = w / 2 by field_simp]
      rw [key, key]
  · intro h
    unfold Footprint.fromRect
    by_cases hwh : width ≤ 0 ∨ height ≤ 0
    · rw [if_pos hwh]
    · rw [if_neg hwh]
      rw [not_or] at hwh
      rcases h with h | h | h | ⟨s, h, hs⟩
      · exact absurd h hwh.1
      · exact absurd h hwh.2
      · subst h; rfl
      · subst h
        dsimp only
        unfold Footprint.init
        have hc : chooseWcs none (some s) = .error .valueError := by
          unfold chooseWcs
          dsimp only
          rw [if_pos hs]
        rw [hc]

/-- A rectangular footprint contains its own centre, wherever it points and however it is rotated; a point 90 degrees away it does not. -/
theorem C53_rectangle_centre (width height s : ℝ) (hw : 0 < width) (hh : 0 < height) (hs : 0 < s) (fp : Footprint)
    (h : Footprint.fromRect width height (some s) = .ok fp) (ra dec : ℝ) (r : Option ℝ) :
    fp.containsAt ra dec ra dec r = true ∧ ∀ ra' dec', dot (direction ra' dec') (direction ra dec) ≤ 0 → fp.containsAt ra' dec' ra dec r = false := by
  obtain ⟨fp', e1, e2⟩ := (C53_rectangle width height (some s)).1 s rfl hw hh hs
  rw [h] at e1
  injection e1 with e1
  subst e1
  obtain ⟨c1, c2, c3⟩ := centre_components ra dec (r.getD 0)
  constructor
  · rw [e2, c1, c2, c3]
    norm_num
    exact ⟨hw, hh⟩
  · intro ra' dec' hd
    rw [Bool.eq_false_iff]
    intro hc
    exact absurd ((e2 ra' dec' ra dec r).1 hc).1 (not_lt.2 hd)

open Classical in
/-- The default projection puts the centre of the detector at pixel (-1/2, -1/2), not at the origin: an accepted pixel region around the
origin need not contain the centre. -/
theorem C53_half_pixel : ∃ (region : PixRegion) (fp : Footprint), region.mem (0, 0) = true ∧ Footprint.init (.pixel region) none (some 1) = .ok fp ∧
    ∀ ra dec r, fp.containsAt ra dec ra dec r = false := by
  have hb : (rectPixels 0 0 (4 / 5) (4 / 5)).bbox = (0, 1, 0, 1) := by
    unfold rectPixels
    norm_num
  refine ⟨rectPixels 0 0 (4 / 5) (4 / 5), ⟨tanWcs 1, rectPixels 0 0 (4 / 5) (4 / 5)⟩, ?_, ?_, ?_⟩
  · unfold rectPixels
    dsimp only
    rw [decide_eq_true_iff]
    norm_num
  · unfold Footprint.init
    have hc : chooseWcs none (some 1) = .ok (tanWcs 1) := by
      unfold chooseWcs
      dsimp only
      rw [if_neg (by norm_num)]
    rw [hc]
    dsimp only [AnyRegion.toPix]
    rw [hb, if_pos (by norm_num)]
  · intro ra dec r
    rw [Bool.eq_false_iff]
    intro hc
    rw [C53_membership] at hc
    obtain ⟨c1, c2, c3⟩ := centre_components ra dec (r.getD 0)
    rw [c1, c2, c3] at hc
    unfold rectPixels at hc
    dsimp only at hc
    rw [decide_eq_true_iff] at hc
    have h1 := hc.2.1
    norm_num [abs_of_neg] at h1

/-- Three points, one centre, three rotations: the shapes of `C53_shapes` are met; a rotation of two entries is rejected. -/
example (fp : Footprint) : (∃ l, l.length = 3 ∧ fp.contains (.array ⟨[3], [1, 2, 3]⟩) (.array ⟨[3], [4, 5, 6]⟩) (.scalar 1) (.array ⟨[1], [2]⟩)
      (some (.array ⟨[3], [7, 8, 9]⟩)) = .ok (.many [3] l) ∧ l[1]? = some (fp.containsAt 2 5 1 2 (some 8))) ∧
    fp.contains (.array ⟨[3], [1, 2, 3]⟩) (.array ⟨[3], [4, 5, 6]⟩) (.scalar 1) (.array ⟨[1], [2]⟩) (some (.array ⟨[2], [7, 8]⟩)) = .error .valueError := by
  constructor
  · obtain ⟨_, h⟩ := C53_shapes fp (.array ⟨[3], [1, 2, 3]⟩) (.array ⟨[3], [4, 5, 6]⟩) (.scalar 1) (.array ⟨[1], [2]⟩)
      (some (.array ⟨[3], [7, 8, 9]⟩)) rfl rfl rfl rfl (by intro r hr; injection hr with hr; subst hr; rfl)
    obtain ⟨l, h1, h2, _, h4⟩ := h rfl (Or.inr rfl) (Or.inr rfl) (by intro r hr; injection hr with hr; subst hr; exact Or.inl rfl)
    refine ⟨l, h1, h2 rfl, h4 1 2 5 1 2 (some 8) rfl rfl (Or.inr ⟨by decide, rfl, rfl⟩) (Or.inr ⟨by decide, rfl, rfl⟩) (Or.inl ⟨rfl, rfl⟩)⟩
  · refine (C53_shapes fp (.array ⟨[3], [1, 2, 3]⟩) (.array ⟨[3], [4, 5, 6]⟩) (.scalar 1) (.array ⟨[1], [2]⟩) (some (.array ⟨[2], [7, 8]⟩))
      rfl rfl rfl rfl ?_).1 (Or.inr (Or.inr (Or.inr ⟨_, rfl, ?_⟩)))
    · intro r hr; injection hr with hr; subst hr; rfl
    · rintro (h | h) <;> exact absurd h (by decide)

end LCL.FootprintProps
