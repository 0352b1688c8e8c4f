import Verif.Model.Salt2Files
import Verif.Spec.Salt2Files
import Verif.Props.Bicubic2
import Verif.Props.Salt2
import Verif.Props.EndToEnd

/-!
# Property C123: SALT2 models read from a directory
-/

namespace LCL.Salt2FilesProps
open LCL LCL.Salt2Files LCL.Salt2FilesSpec LCL.Salt2 LCL.GridIOProps LCL.BicubicProps LCL.SniaSurveySpec LCL.PhysSpec LCL.EndToEndSpec

/-! ### Interpolators read from files -/

theorem steps_pos {x : List ℝ} (h : x.Pairwise (· < ·)) : ∀ d, IsStep x d → 0 < d := by
  rintro d ⟨i, a, b, ha, hb, rfl⟩
  obtain ⟨hi, rfl⟩ := List.getElem?_eq_some_iff.1 ha
  obtain ⟨hj, rfl⟩ := List.getElem?_eq_some_iff.1 hb
  exact sub_pos.2 (List.pairwise_iff_getElem.1 h i (i + 1) hi hj (by omega))

theorem mkAxis_of {x : List ℝ} (h : x.Pairwise (· < ·)) (hl : 3 ≤ x.length) : ∃ a, mkAxis x = .ok a := by
  unfold mkAxis
  rw [if_neg (by omega), if_neg]
  · split
    · exact ⟨_, rfl⟩
    · exact ⟨_, rfl⟩
  · intro hc
    obtain ⟨d, hd, he⟩ := List.any_eq_true.1 hc
    exact absurd (of_decide_eq_true he) (not_le.2 (steps_pos h d ((stepSizes_mem x d).1 hd)))

/-- The grid file of a proper grid is accepted, and the interpolator is that of the scaled values. -/
theorem fromGridFile_ok {file : Option (List (List ℝ))} {x y : List ℝ} {z : List (List ℝ)} (h : GridFile file x y z) (scale : ℝ) :
    ∃ b, fromGridFile file scale = .ok b ∧ mkBicubic x y (z.map fun r => r.map fun v => v * scale) = .ok b := by
  unfold fromGridFile
  rw [h.content, C46_inverts h.grid true]
  dsimp only
  obtain ⟨ax, ex⟩ := mkAxis_of h.grid.axis0.1 h.long.1
  obtain ⟨ay, ey⟩ := mkAxis_of h.grid.axis1.1 h.long.2
  have : mkBicubic x y (z.map fun r => r.map fun v => v * scale) = .ok ⟨ax, ay, z.map fun r => r.map fun v => v * scale⟩ := by
    unfold mkBicubic
    rw [ex, ey]
    dsimp only
    rw [if_neg]
    rintro (hc | hc)
    · exact hc (by rw [List.length_map]; exact h.grid.rows)
    · obtain ⟨r, hr, he⟩ := List.any_eq_true.1 hc
      obtain ⟨r', hr', rfl⟩ := List.mem_map.1 hr
      exact of_decide_eq_true he (by rw [List.length_map]; exact h.grid.cols r' hr')
  rw [this]
  exact ⟨_, rfl, rfl⟩

/-- The entry of the scaled grid. -/
theorem scaled_entry {z : List (List ℝ)} {scale : ℝ} {i j : Nat} {r : List ℝ} {v : ℝ} (hr : (z.map fun r => r.map fun v => v * scale)[i]? = some r) (hv : r[j]? = some v) :
    ∃ r' v', z[i]? = some r' ∧ r'[j]? = some v' ∧ v = v' * scale := by
  rw [List.getElem?_map] at hr
  cases hz : z[i]? with
  | none => rw [hz] at hr; cases hr
  | some r' =>
    rw [hz] at hr
    simp only [Option.map_some, Option.some.injEq] at hr
    subst hr
    rw [List.getElem?_map] at hv
    cases hr' : r'[j]? with
    | none => rw [hr'] at hv; cases hv
    | some v' =>
      rw [hr'] at hv
      simp only [Option.map_some, Option.some.injEq] at hv
      exact ⟨r', v', rfl, hr', hv.symm⟩

theorem value_interpolates {x y : List ℝ} {z : List (List ℝ)} {b : Bicubic ℝ} {scale : ℝ} (hs : scale ≠ 0)
    (h : mkBicubic x y (z.map fun r => r.map fun v => v * scale) = .ok b) : Interpolates x y z (fun ph w => value b ph w / scale) where
  node := by
    intro sx sy i j a c r v hi hj hr hv
    have := C48_grid_point_partial h sx sy hi hj (r := r.map fun v => v * scale) (by rw [List.getElem?_map, hr]; rfl) (c := v * scale) (by rw [List.getElem?_map, hv]; rfl)
    unfold value
    rw [this]
    simp [hs]
  outside := by
    intro a c ho
    have := (C48_constant_partial h a c).1 ho
    unfold value
    rw [this]
    simp
  bilinear := by
    intro hx hy α β γ δ rx ry hf a c x1 x2 y1 y2
    have := C48_bilinear h rx ry (α := α * scale) (β := β * scale) (γ := γ * scale) (δ := δ * scale) (by
      intro i j r a c v hi hj hr hv
      obtain ⟨r', v', e1, e2, rfl⟩ := scaled_entry hr hv
      rw [hf i j a c r' v' hi hj e1 e2]; ring) x1 x2 y1 y2
    unfold value
    rw [this]
    simp only [Option.getD_some]
    field_simp

/-! ### The spectrum -/

/-- Extrapolation plays no role. -/
theorem sed_extrap {V W R : Type} (d : Data) (node : Name) (extrap : Option (ℝ → List ℝ → List ℝ → Mat ℝ)) (noKw kw : W) (times waves : List ℝ) (st : SState ℝ) :
    (model d node extrap : SEDModel V W R ℝ).sedExtrapolated noKw times waves st kw = (model d node none : SEDModel V W R ℝ).sedExtrapolated noKw times waves st kw := by
  unfold SEDModel.sedExtrapolated
  cases npMin waves with
  | none => rfl
  | some lo => cases npMax waves with
    | none => rfl
    | some hi =>
      dsimp only
      rw [if_pos ⟨le_rfl, le_rfl⟩, if_pos ⟨le_rfl, le_rfl⟩]
      rfl

theorem evaluate_extrap {V W R : Type} (d : Data) (node : Name) (extrap : Option (ℝ → List ℝ → List ℝ → Mat ℝ)) (noKw kw : W) (times waves : List ℝ) (st : SState ℝ) (r : R) :
    (model d node extrap : SEDModel V W R ℝ).evaluateSingle noKw times waves st r kw = (model d node none : SEDModel V W R ℝ).evaluateSingle noKw times waves st r kw := by
  unfold SEDModel.evaluateSingle
  simp only [sed_extrap d node extrap]
  rfl

theorem num_ok {p : Params ℝ} {name : String} {x : ℝ} (h : p.get? name.toList = some (.num x)) : numArg p name = .ok x := by
  unfold numArg; rw [h]

theorem observes {V W R : Type} {d : Data} {node : Name} {extrap : Option (ℝ → List ℝ → List ℝ → Mat ℝ)} {st : SState ℝ} {p : Params ℝ} {z t0 x0 x1 c : ℝ} (noKw : W)
    (hz1 : z ≠ -1) (hp : st.get? node = some p) (hz : p.get? redshiftKey = some (.num z)) (ht : p.get? "t0".toList = some (.num t0))
    (h0 : p.get? "x0".toList = some (.num x0)) (h1 : p.get? "x1".toList = some (.num x1)) (hc : p.get? "c".toList = some (.num c)) :
    Observes (model d node extrap : SEDModel V W R ℝ) noKw st
      (fun t w => (1 + z) * nanojansky (x0 * (value d.m0 ((t - t0) / (1 + z)) (w / (1 + z)) + x1 * value d.m1 ((t - t0) / (1 + z)) (w / (1 + z))) *
        (10 : ℝ) ^ (-0.4 * d.law.at (w / (1 + z)) * c)) (w / (1 + z))) := by
  let F : ℝ → ℝ → ℝ := fun t w => nanojansky (x0 * (value d.m0 (t - t0) w + x1 * value d.m1 (t - t0) w) * (10 : ℝ) ^ (-0.4 * d.law.at w * c)) w
  have hcomp : ∀ times ws, Salt2Files.computeSed d node st times ws = .ok (times.map fun t => ws.map (F t)) := by
    intro times ws
    unfold Salt2Files.computeSed localParams
    rw [hp]
    dsimp only
    rw [num_ok ht, num_ok h0, num_ok h1, num_ok hc]
    dsimp only
    obtain ⟨r, e1, e2, e3⟩ := C77_spectrum (value d.m0) (value d.m1) d.law x0 x1 c t0 times ws
    rw [e1]
    dsimp only
    congr 1
    unfold toRows
    apply List.ext_getElem (by simp)
    intro i hi hi'
    rw [List.getElem_map, List.getElem_map]
    have hit : i < times.length := by simpa using hi'
    apply List.ext_getElem (by simp)
    intro j hj hj'
    have hjw : j < ws.length := by simpa using hj'
    have := e3 i j times[i] ws[j] (List.getElem?_eq_getElem hit) (List.getElem?_eq_getElem hjw)
    rw [List.getElem_map, List.getElem_map, List.getElem_range, List.getElem_range]
    show _ = nanojansky _ _
    unfold nanojansky
    rw [← this]
    field_simp
  have key := EndToEndProps.C110_redshifted (m := (model d node none : SEDModel V W R ℝ)) ⟨rfl, rfl⟩ noKw st p z t0 F (fun _ _ _ => 0) hz1
    (fun _ _ _ => hcomp _ _) (Or.inl ⟨rfl, rfl⟩) (by intro l h hl; cases hl) hp rfl hz (fun _ => ht)
  have e : (fun t w => (1 + z) * stretch ((model d node none : SEDModel V W R ℝ).minwave st) ((model d node none : SEDModel V W R ℝ).maxwave st)
      (F (t0 + (t - t0) / (1 + z))) (fun _ _ _ => 0) (w / (1 + z))) = (fun t w => (1 + z) * F (t0 + (t - t0) / (1 + z)) (w / (1 + z))) := rfl
  rw [e] at key
  have e' : (fun t w => (1 + z) * F (t0 + (t - t0) / (1 + z)) (w / (1 + z))) = (fun t w => (1 + z) * nanojansky (x0 * (value d.m0 ((t - t0) / (1 + z)) (w / (1 + z)) + x1 * value d.m1 ((t - t0) / (1 + z)) (w / (1 + z))) *
        (10 : ℝ) ^ (-0.4 * d.law.at (w / (1 + z)) * c)) (w / (1 + z))) := by
    funext t w
    show (1 + z) * nanojansky _ _ = _
    rw [show t0 + (t - t0) / (1 + z) - t0 = (t - t0) / (1 + z) by ring]
  rw [e'] at key
  intro times waves r hw
  rw [← key times waves r hw]
  exact evaluate_extrap d node extrap noKw noKw times waves st r

/-- C123. A SALT2 model read from a directory: if the two template files hold the tables of grids (at least three phases and three wavelengths) and the colour-law file a law, the constructor
succeeds, and the model shows the documented spectrum for every set of parameters: `x0 (M0 + x1 M1) 10^(-0.4 c CL)`, in units of 1e-12 erg/s/cm^2/AA, with `M0` and `M1` interpolations of the
two tables at the phase and wavelength in the frame of the source, converted to nJy and redshifted. Wavelength extrapolation plays no role. -/
theorem C123_spectrum {V W R : Type} {P : Parser ℝ} {dir : Dir} {m0 m1 cl : Name} {x y x' y' : List ℝ} {v v' : List (List ℝ)} {toks : List Name} {law : ColorLaw ℝ}
    (g0 : GridFile (dir.grid m0) x y v) (g1 : GridFile (dir.grid m1) x' y' v') (hl : dir.text cl = some toks) (hlaw : readLaw P toks = .ok law) :
    ∃ d M0 M1, load P dir m0 m1 cl = .ok d ∧ Interpolates x y v M0 ∧ Interpolates x' y' v' M1 ∧
      ∀ (node : Name) (extrap : Option (ℝ → List ℝ → List ℝ → Mat ℝ)) (noKw : W) (st : SState ℝ) (p : Params ℝ) (z t0 x0 x1 c : ℝ), z ≠ -1 → st.get? node = some p →
        p.get? "redshift".toList = some (.num z) → p.get? "t0".toList = some (.num t0) → p.get? "x0".toList = some (.num x0) →
        p.get? "x1".toList = some (.num x1) → p.get? "c".toList = some (.num c) →
        Observes (model d node extrap : SEDModel V W R ℝ) noKw st (saltObserved M0 M1 law.at x0 x1 c z t0) := by
  obtain ⟨b0, e0, k0⟩ := fromGridFile_ok g0 (1 / 10 ^ 12)
  obtain ⟨b1, e1, k1⟩ := fromGridFile_ok g1 (1 / 10 ^ 12)
  refine ⟨⟨b0, b1, law⟩, _, _, ?_, value_interpolates (by norm_num) k0, value_interpolates (by norm_num) k1, ?_⟩
  · unfold load
    rw [e0, e1, hl]
    dsimp only
    rw [hlaw]
  · intro node extrap noKw st p z t0 x0 x1 c hz1 hp hz ht h0 h1 hc
    have := observes (V := V) (R := R) (d := ⟨b0, b1, law⟩) (extrap := extrap) noKw hz1 hp hz ht h0 h1 hc
    convert this using 1
    funext t w
    unfold saltObserved saltFlam
    dsimp only
    rw [show (1e-12 : ℝ) = 1 / 10 ^ 12 by norm_num, mul_div_cancel₀ _ (by norm_num), mul_div_cancel₀ _ (by norm_num)]

/-- C123. What is rejected: a missing file, a file that is not the table of a grid, a grid with fewer than three phases or wavelengths. -/
theorem C123_rejects (P : Parser ℝ) (dir : Dir) (m0 m1 cl : Name) :
    (dir.grid m0 = none → load P dir m0 m1 cl = .error .fileNotFound) ∧
    (∀ rows : List (ℝ × ℝ × ℝ), rows ≠ [] → dir.grid m0 = some (columns rows) → (¬ ∃ x y z, Grid x y z ∧ 3 ≤ x.length ∧ 3 ≤ y.length ∧ rows = dump x y z) →
      load P dir m0 m1 cl = .error .valueError) ∧
    (∀ x y v, GridFile (dir.grid m0) x y v → (dir.grid m1 = none → load P dir m0 m1 cl = .error .fileNotFound) ∧
      (∀ rows : List (ℝ × ℝ × ℝ), rows ≠ [] → dir.grid m1 = some (columns rows) → (¬ ∃ x y z, Grid x y z ∧ 3 ≤ x.length ∧ 3 ≤ y.length ∧ rows = dump x y z) →
        load P dir m0 m1 cl = .error .valueError) ∧
      ∀ x' y' v', GridFile (dir.grid m1) x' y' v' → dir.text cl = none → load P dir m0 m1 cl = .error .fileNotFound) := by
  have bad : ∀ (file : Option (List (List ℝ))) (scale : ℝ) (rows : List (ℝ × ℝ × ℝ)), rows ≠ [] → file = some (columns rows) →
      (¬ ∃ x y z, Grid x y z ∧ 3 ≤ x.length ∧ 3 ≤ y.length ∧ rows = dump x y z) → fromGridFile file scale = .error .valueError := by
    intro file scale rows hne hf hno
    unfold fromGridFile
    rw [hf]
    obtain ⟨a, b⟩ := C46_validated rows
    cases hr : readGrid (some (columns rows)) true with
    | error e =>
      dsimp only
      by_cases hg : ∃ x0 x1 v, Grid x0 x1 v ∧ rows = dump x0 x1 v
      · obtain ⟨x0, x1, v, hg, rfl⟩ := hg
        rw [C46_inverts hg] at hr; cases hr
      · rw [b hg hne] at hr; injection hr with hr; rw [hr]
    | ok q =>
      obtain ⟨x0, x1, v⟩ := q
      dsimp only
      obtain ⟨s0, s1, l0, l1, hd⟩ := a x0 x1 v hr
      have hshort : x0.length < 3 ∨ x1.length < 3 := by
        by_contra hc
        push Not at hc
        refine hno ⟨x0, x1, v, ⟨⟨s0, ?_⟩, ⟨s1, ?_⟩, l0, l1⟩, hc.1, hc.2, hd⟩
        · intro h; subst h; simp at hc
        · intro h; subst h; simp at hc
      unfold mkBicubic
      cases hx : mkAxis x0 with
      | error e =>
        dsimp only
        unfold mkAxis at hx
        split at hx
        · injection hx with hx; exact hx ▸ rfl
        · split at hx
          · injection hx with hx; exact hx ▸ rfl
          · split at hx <;> cases hx
      | ok ax =>
        dsimp only
        have : x1.length < 3 := by
          rcases hshort with h | h
          · unfold mkAxis at hx
            rw [if_pos h] at hx; cases hx
          · exact h
        unfold mkAxis
        rw [if_pos this]
  refine ⟨?_, ?_, ?_⟩
  · intro h
    unfold load fromGridFile
    rw [h]; rfl
  · intro rows hne h hno
    unfold load
    rw [bad _ _ rows hne h hno]
  · intro x y v g
    obtain ⟨b0, e0, _⟩ := fromGridFile_ok g (1 / 10 ^ 12)
    refine ⟨?_, ?_, ?_⟩
    · intro h
      unfold load
      rw [e0, h]; rfl
    · intro rows hne h hno
      unfold load
      rw [e0, bad _ _ rows hne h hno]
    · intro x' y' v' g' h
      obtain ⟨b1, e1, _⟩ := fromGridFile_ok g' (1 / 10 ^ 12)
      unfold load
      rw [e0, e1, h]

/-! ### A concrete directory -/

/-- Templates rising with phase, on three phases and three wavelengths, and a colour law without coefficients. -/
noncomputable def small : Dir where
  grid := fun n => if n = "salt2_template_0.dat".toList then some (columns (dump [-10, 0, 10] [4000, 5000, 6000] [[1, 1, 1], [2, 2, 2], [3, 3, 3]]))
    else if n = "salt2_template_1.dat".toList then some (columns (dump [-10, 0, 10] [4000, 5000, 6000] [[0, 0, 0], [0, 1, 0], [0, 0, 0]])) else none
  text := fun n => if n = "salt2_color_correction.dat".toList then some ["0".toList] else none

/-- Reads the number zero. -/
def zeroParser : Parser ℝ := ⟨fun _ => none, fun t => if t = "0".toList then some 0 else none⟩

theorem small_grid0 : GridFile (small.grid "salt2_template_0.dat".toList) [-10, 0, 10] [4000, 5000, 6000] [[1, 1, 1], [2, 2, 2], [3, 3, 3]] := by
  refine ⟨⟨⟨by norm_num, by simp⟩, ⟨by norm_num, by simp⟩, rfl, by simp⟩, ?_, by simp, by simp⟩
  unfold small
  dsimp only
  rw [if_pos rfl]

theorem small_grid1 : GridFile (small.grid "salt2_template_1.dat".toList) [-10, 0, 10] [4000, 5000, 6000] [[0, 0, 0], [0, 1, 0], [0, 0, 0]] := by
  refine ⟨⟨⟨by norm_num, by simp⟩, ⟨by norm_num, by simp⟩, rfl, by simp⟩, ?_, by simp, by simp⟩
  unfold small
  dsimp only
  rw [if_neg (by decide), if_pos rfl]

theorem small_law : small.text "salt2_color_correction.dat".toList = some ["0".toList] ∧ readLaw zeroParser ["0".toList] = .ok (ColorLaw.init 3000 7000 []) := by
  constructor
  · unfold small
    dsimp only
    rw [if_pos rfl]
  · unfold readLaw zeroParser
    rfl

/-- In this directory the flux doubles from phase -10 to phase 0 for a supernova without stretch. -/
example : ∃ d M0 M1, load zeroParser small "salt2_template_0.dat".toList "salt2_template_1.dat".toList "salt2_color_correction.dat".toList = .ok d ∧
    Observes (model d "sn".toList none : SEDModel Unit Unit Unit ℝ) () [("sn".toList, [("redshift".toList, .num 0), ("t0".toList, .num 100), ("x0".toList, .num 1), ("x1".toList, .num 0), ("c".toList, .num 0)])]
      (saltObserved M0 M1 (ColorLaw.init 3000 7000 []).at 1 0 0 0 100) ∧ M0 (-10) 5000 = 1 ∧ M0 0 5000 = 2 := by
  obtain ⟨d, M0, M1, h, i0, _, ho⟩ := C123_spectrum (V := Unit) (W := Unit) (R := Unit) small_grid0 small_grid1 small_law.1 small_law.2
  have sx : Sound [(-10 : ℝ), 0, 10] := by
    left; refine ⟨10, ?_⟩
    rintro d ⟨i, a, b, ha, hb, rfl⟩
    match i with
    | 0 => simp at ha hb; subst ha hb; norm_num
    | 1 => simp at ha hb; subst ha hb; norm_num
    | i + 2 => simp at hb
  have sy : Sound [(4000 : ℝ), 5000, 6000] := by
    left; refine ⟨1000, ?_⟩
    rintro d ⟨i, a, b, ha, hb, rfl⟩
    match i with
    | 0 => simp at ha hb; subst ha hb; norm_num
    | 1 => simp at ha hb; subst ha hb; norm_num
    | i + 2 => simp at hb
  refine ⟨d, M0, M1, h, ho _ _ _ _ _ _ _ _ _ _ (by norm_num) rfl rfl rfl rfl rfl rfl, ?_, ?_⟩
  · exact i0.node sx sy 0 1 _ _ _ _ rfl rfl rfl rfl
  · exact i0.node sx sy 1 1 _ _ _ _ rfl rfl rfl rfl

end LCL.Salt2FilesProps
