import Verif.Model.BasicModels
import Verif.Props.Physical
import Verif.Props.Bandfluxes

/-!
# Properties C82-C85: the simple models, evaluated end to end
-/

namespace LCL.BasicProps
open LCL LCL.PhysSpec LCL.PhysicalProps
variable {K : Type} [Field K] [LinearOrder K] [IsStrictOrderedRing K] {V R : Type}

/-- The parameter `name` of the node has the value `x`. -/
def Has (st : SState K) (node : Name) (name : String) (x : K) : Prop :=
  ∃ p, st.get? node = some p ∧ p.get? name.toList = some (.num x)

omit [IsStrictOrderedRing K] in
theorem num_of {p : Params K} {name : String} {x : K} (h : p.get? name.toList = some (.num x)) : numArg p name = .ok x := by
  unfold numArg
  rw [h]

omit [IsStrictOrderedRing K] in
theorem plain_pointwise {node : Name} {c : Kw K → Params K → List K → List K → Except Err (Mat K)} {lo hi : Option K} {st : SState K} {p : Params K}
    {F : K → K → K} (hp : st.get? node = some p) (h : ∀ kw times waves, c kw p times waves = .ok (times.map fun t => waves.map (F t))) :
    Pointwise (plainSed node c lo hi : SEDModel V (Kw K) R K) st F := by
  intro kw times waves
  unfold plainSed localParams
  dsimp only
  rw [hp]
  exact h kw times waves

/-- the closed form of an evaluated plain model without bounds -/
theorem plain_evaluate {node : Name} {c : Kw K → Params K → List K → List K → Except Err (Mat K)} {st : SState K} {p : Params K} {z t0 : K}
    {F : K → K → K} (hp : st.get? node = some p) (h : ∀ kw times waves, c kw p times waves = .ok (times.map fun t => waves.map (F t)))
    (hz1 : z ≠ -1) (hz : p.get? redshiftKey = some (.num z)) (ht : p.get? t0Key = some (.num t0)) {waves : List K} (hne : waves ≠ [])
    (times : List K) (kw : Kw K) (r : R) :
    (plainSed node c none none : SEDModel V (Kw K) R K).evaluateSingle Kw.empty times waves st r kw =
      .ok (times.map (fun t => waves.map fun w => (1 + z) * F (t0 + (t - t0) / (1 + z)) (w / (1 + z))), r) := by
  rw [C32_evaluate (plainSed node c none none) ⟨rfl, rfl⟩ Kw.empty kw times waves st r p z t0 F (fun _ _ _ => 0) hz1
    (plain_pointwise hp h) (Or.inl ⟨rfl, rfl⟩) (by intro l h h1; cases h1) hne hp rfl hz (fun _ => ht)]
  rfl

/-- C82. A constant source has the same flux at all times and wavelengths: its brightness, times 1+z. -/
theorem C82_constant {st : SState K} {p : Params K} {node : Name} {z t0 b : K} (hp : st.get? node = some p) (hz1 : z ≠ -1)
    (hz : p.get? redshiftKey = some (.num z)) (ht : p.get? t0Key = some (.num t0)) (hb : p.get? "brightness".toList = some (.num b))
    {waves : List K} (hne : waves ≠ []) (times : List K) (kw : Kw K) (r : R) :
    (constantModel node : SEDModel V (Kw K) R K).evaluateSingle Kw.empty times waves st r kw =
      .ok (times.map (fun _ => waves.map fun _ => (1 + z) * b), r) := by
  refine plain_evaluate (F := fun _ _ => b) hp ?_ hz1 hz ht hne times kw r
  intro _ times waves
  unfold constantSed
  rw [num_of hb]

/-- C82. A step source seen at redshift `z > -1`: its brightness times 1+z between `t0` and `t0 + (1+z)(t1-t0)`, both included,
and zero outside. -/
theorem C82_step {st : SState K} {p : Params K} {node : Name} {z t0 t1 b : K} (hp : st.get? node = some p) (hz1 : -1 < z)
    (hz : p.get? redshiftKey = some (.num z)) (ht : p.get? t0Key = some (.num t0)) (h1 : p.get? "t1".toList = some (.num t1))
    (hb : p.get? "brightness".toList = some (.num b)) {waves : List K} (hne : waves ≠ []) (times : List K) (kw : Kw K) (r : R) :
    (stepModel node : SEDModel V (Kw K) R K).evaluateSingle Kw.empty times waves st r kw =
      .ok (times.map (fun t => waves.map fun _ => if t0 ≤ t ∧ t ≤ t0 + (1 + z) * (t1 - t0) then (1 + z) * b else 0), r) := by
  have hpos : 0 < 1 + z := by linarith
  have := plain_evaluate (V := V) (node := node) (F := fun t _ => if t0 ≤ t ∧ t ≤ t1 then b else 0) (c := fun _ => stepSed) hp (by
    intro _ times waves
    unfold stepSed
    rw [num_of (name := "t0") ht]; dsimp only
    rw [num_of h1]; dsimp only
    rw [num_of hb]) hz1.ne' hz ht hne times kw r
  rw [stepModel, this]
  congr 2
  refine List.map_congr_left fun t _ => List.map_congr_left fun w _ => ?_
  have e : (t0 ≤ t0 + (t - t0) / (1 + z) ∧ t0 + (t - t0) / (1 + z) ≤ t1) ↔ (t0 ≤ t ∧ t ≤ t0 + (1 + z) * (t1 - t0)) := by
    have e1 : t0 ≤ t0 + (t - t0) / (1 + z) ↔ t0 ≤ t := by
      rw [le_add_iff_nonneg_right, div_nonneg_iff]
      constructor
      · rintro (⟨h, _⟩ | ⟨_, h⟩)
        · linarith
        · linarith
      · intro h; left; exact ⟨by linarith, hpos.le⟩
    have e2 : t0 + (t - t0) / (1 + z) ≤ t1 ↔ t ≤ t0 + (1 + z) * (t1 - t0) := by
      rw [← le_sub_iff_add_le', div_le_iff₀ hpos]
      constructor <;> intro h <;> linarith
    rw [e1, e2]
  by_cases h : t0 ≤ t ∧ t ≤ t0 + (1 + z) * (t1 - t0)
  · rw [if_pos (e.2 h), if_pos h]
  · rw [if_neg (fun h' => h (e.1 h')), if_neg h, mul_zero]

/-- C82. A linear spectrum without bounds seen at redshift `z`: the base is multiplied by 1+z, the slope over the observed wavelength
is unchanged. -/
theorem C82_linear {st : SState K} {p : Params K} {node : Name} {z t0 b s : K} (hp : st.get? node = some p) (hz1 : z ≠ -1)
    (hz : p.get? redshiftKey = some (.num z)) (ht : p.get? t0Key = some (.num t0)) (hb : p.get? "linear_base".toList = some (.num b))
    (hs : p.get? "linear_scale".toList = some (.num s)) {waves : List K} (hne : waves ≠ []) (times : List K) (kw : Kw K) (r : R) :
    (linearModel node none none : SEDModel V (Kw K) R K).evaluateSingle Kw.empty times waves st r kw =
      .ok (times.map (fun _ => waves.map fun w => (1 + z) * b + s * w), r) := by
  have := plain_evaluate (V := V) (node := node) (F := fun _ w => b + s * w) (c := fun _ => linearSed) hp (by
    intro _ times waves
    unfold linearSed
    rw [num_of hb]; dsimp only
    rw [num_of hs]) hz1 hz ht hne times kw r
  rw [linearModel, this]
  congr 2
  refine List.map_congr_left fun t _ => List.map_congr_left fun w _ => ?_
  have : 1 + z ≠ 0 := fun h => hz1 (by linarith)
  field_simp

/-- C82. With bounds `lo ≤ hi` in the rest frame: the spectrum inside, zero outside. -/
theorem C82_linear_bounds {st : SState K} {p : Params K} {node : Name} {z t0 b s lo hi : K} (hp : st.get? node = some p) (hz1 : -1 < z)
    (hlo : lo ≤ hi) (hz : p.get? redshiftKey = some (.num z)) (ht : p.get? t0Key = some (.num t0))
    (hb : p.get? "linear_base".toList = some (.num b)) (hs : p.get? "linear_scale".toList = some (.num s))
    {waves : List K} (hne : waves ≠ []) (times : List K) (kw : Kw K) (r : R) :
    (linearModel node (some lo) (some hi) : SEDModel V (Kw K) R K).evaluateSingle Kw.empty times waves st r kw =
      .ok (times.map (fun _ => waves.map fun w =>
        if lo * (1 + z) ≤ w ∧ w ≤ hi * (1 + z) then (1 + z) * b + s * w else 0), r) := by
  have hpos : 0 < 1 + z := by linarith
  rw [C32_evaluate (linearModel node (some lo) (some hi) : SEDModel V (Kw K) R K) ⟨rfl, rfl⟩ Kw.empty kw times waves st r p z t0
    (fun _ w => b + s * w) (fun _ _ _ => 0) hz1.ne' (plain_pointwise hp ?_) (Or.inl ⟨rfl, rfl⟩) ?_ hne hp rfl hz (fun _ => ht)]
  · congr 2
    refine List.map_congr_left fun t _ => List.map_congr_left fun w _ => ?_
    show (1 + z) * stretch (some lo) (some hi) (fun w => b + s * w) _ (w / (1 + z)) = _
    unfold stretch
    by_cases h1 : w / (1 + z) < lo
    · have : ¬ (lo * (1 + z) ≤ w ∧ w ≤ hi * (1 + z)) := fun h => absurd h.1 (not_le.2 ((div_lt_iff₀ hpos).1 h1))
      rw [if_neg this]
      simp [Option.filter, h1]
    · by_cases h2 : hi < w / (1 + z)
      · have : ¬ (lo * (1 + z) ≤ w ∧ w ≤ hi * (1 + z)) := fun h => absurd h.2 (not_le.2 ((lt_div_iff₀ hpos).1 h2))
        rw [if_neg this]
        simp [Option.filter, h1, h2]
      · rw [not_lt] at h1 h2
        rw [if_pos ⟨(le_div_iff₀ hpos).1 h1, (div_le_iff₀ hpos).1 h2⟩]
        simp only [Option.filter, decide_eq_true_eq, not_lt.2 h1, not_lt.2 h2, if_false]
        field_simp
  · intro _ times waves
    unfold linearSed
    rw [num_of hb]; dsimp only
    rw [num_of hs]
  · intro l h hl hh
    cases hl; cases hh
    exact hlo

/-- C82. A sine source seen at redshift `z > -1` is a sine with the frequency divided by 1+z, in phase at `t0`. -/
theorem C82_sine {st : SState ℝ} {p : Params ℝ} {node : Name} {z t0 b a f : ℝ} (hp : st.get? node = some p) (hz1 : z ≠ -1)
    (hz : p.get? redshiftKey = some (.num z)) (ht : p.get? t0Key = some (.num t0)) (hb : p.get? "brightness".toList = some (.num b))
    (ha : p.get? "amplitude".toList = some (.num a)) (hf : p.get? "frequency".toList = some (.num f))
    {waves : List ℝ} (hne : waves ≠ []) (times : List ℝ) (kw : Kw ℝ) (r : R) :
    (sinModel node : SEDModel V (Kw ℝ) R ℝ).evaluateSingle Kw.empty times waves st r kw =
      .ok (times.map (fun t => waves.map fun _ => (1 + z) * (b + a * Real.sin (2 * Real.pi * (f / (1 + z)) * (t - t0)))), r) := by
  have := plain_evaluate (V := V) (node := node) (F := fun t _ => b + a * Real.sin (2 * Real.pi * f * (t - t0))) (c := fun _ => sinSed) hp (by
    intro _ times waves
    unfold sinSed
    rw [num_of hf]; dsimp only
    rw [num_of (name := "t0") ht]; dsimp only
    rw [num_of hb]; dsimp only
    rw [num_of ha]) hz1 hz ht hne times kw r
  rw [sinModel, this]
  congr 2
  refine List.map_congr_left fun t _ => List.map_congr_left fun w _ => ?_
  congr 3
  have : 1 + z ≠ 0 := fun h => hz1 (by linarith)
  congr 1
  field_simp
  ring

/-- C82. Missing or unset parameters raise: a step model without `t0` is a TypeError when no redshift is applied. -/
theorem C82_step_missing {st : SState K} {p : Params K} {node : Name} (hp : st.get? node = some p) (hz : p.get? redshiftKey = some (.num 0))
    (ht : p.get? t0Key = some .none) {waves : List K} (hne : waves ≠ []) (times : List K) (kw : Kw K) (r : R) :
    (stepModel node : SEDModel V (Kw K) R K).evaluateSingle Kw.empty times waves st r kw = .error .typeError := by
  have hs : ∀ times waves, stepSed p times waves = .error .typeError := by
    intro times waves
    unfold stepSed numArg
    rw [show p.get? "t0".toList = some .none from ht]
  unfold SEDModel.evaluateSingle localParams
  rw [show (stepModel node : SEDModel V (Kw K) R K).nodeString = node from rfl, hp]
  have hrz : redshiftOf (stepModel node : SEDModel V (Kw K) R K).applyRedshift p = .ok none := by
    unfold redshiftOf
    rw [show (stepModel node : SEDModel V (Kw K) R K).applyRedshift = true from rfl, if_pos rfl, hz]
    simp
  dsimp only
  rw [hrz]
  dsimp only [restTimesOf, restWavesOf]
  have : (stepModel node : SEDModel V (Kw K) R K).sedExtrapolated Kw.empty times waves st kw = .error .typeError := by
    unfold SEDModel.sedExtrapolated
    cases waves with
    | nil => exact absurd rfl hne
    | cons w ws =>
      dsimp only [npMin, npMax]
      rw [show (stepModel node : SEDModel V (Kw K) R K).minwave st = none from rfl, show (stepModel node : SEDModel V (Kw K) R K).maxwave st = none from rfl]
      dsimp only [Option.getD]
      rw [if_pos ⟨le_rfl, le_rfl⟩]
      unfold stepModel plainSed localParams
      dsimp only
      rw [hp]
      exact hs _ _
  rw [this]

/-- a concrete case of the hypotheses of C82: a step of brightness 2 between days 1 and 3 at redshift 1, seen until day 5 -/
example : ((stepModel "m".toList : SEDModel Unit (Kw ℚ) Unit ℚ).evaluateSingle Kw.empty [0, 1, 5, 6] [4000, 5000]
    [("m".toList, [("redshift".toList, .num 1), ("t0".toList, .num 1), ("t1".toList, .num 3), ("brightness".toList, .num 2)])] () Kw.empty) =
    .ok ([[0, 0], [4, 4], [4, 4], [0, 0]], ()) := by
  rw [C82_step (p := [("redshift".toList, .num 1), ("t0".toList, .num 1), ("t1".toList, .num 3), ("brightness".toList, .num 2)])
    (z := 1) (t0 := 1) (t1 := 3) (b := 2) rfl (by norm_num) rfl rfl rfl rfl (by simp)]
  norm_num

end LCL.BasicProps
