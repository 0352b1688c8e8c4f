import Verif.Props.Bandfluxes
import Verif.Props.Bicubic2
import Verif.Lemmas.Kernel

/-!
# Concrete cases that meet the hypotheses of C31, C32, C33 and C48

A model over the rationals that depends on time and wavelength, is defined between two wavelengths, is extended by its edge values, is
redshifted, and has an effect in each frame.
-/

namespace LCL.EvalExamples
open LCL LCL.PhysSpec LCL.BicubicProps LCL.BandfluxProps LCL.PhysicalProps

/-- The edge value is repeated. -/
def flat : ℚ → List ℚ → List ℚ → Mat ℚ := fun _ col qs => col.map fun f => qs.map fun _ => f

/-- A spectrum `t + w` between 2 and 10. -/
def ramp : SEDModel Unit Unit Nat ℚ where
  nodeString := "source".toList
  setters := []
  computeSed := fun _ _ times waves => .ok (times.map fun t => waves.map fun w => t + w)
  minwave := fun _ => some 2
  maxwave := fun _ => some 10
  extrap := some flat
  applyRedshift := true
  restEffects := []
  obsEffects := []

def rampState (z : ℚ) : SState ℚ := [("source".toList, [(redshiftKey, .num z), (t0Key, .num 3)])]

/-- An effect that multiplies by a constant and, on the sky, adds the time. -/
def scaleBy (rest : Bool) (c : ℚ) : Effect Unit Nat ℚ where
  restFrame := rest
  parameters := []
  apply := fun _ ts _ r m => .ok (List.zipWith (fun t row => row.map fun x => c * x + (if rest then 0 else t)) ts m, r)
  applyBand := fun _ _ _ r xs => .ok (xs, r)

/-- C32: at redshift 1, twice the spectrum of the model at the moved time and half the wavelength; below 2 its value at 2. -/
example (r : Nat) : ramp.evaluateSingle () [5, 9] [2, 8, 30] (rampState 1) r () =
    .ok ([[12, 16, 28], [16, 20, 32]], r) := by
  rw [C32_evaluate ramp ⟨rfl, rfl⟩ () () [5, 9] [2, 8, 30] (rampState 1) r [(redshiftKey, .num 1), (t0Key, .num 3)] 1 3 (fun t w => t + w)
    (fun _ f _ => f) (by norm_num) (fun _ _ _ => rfl) (Or.inr ⟨flat, rfl, fun _ _ _ => rfl⟩)
    (by intro l h h1 h2; cases h1; cases h2; norm_num) (by simp) rfl rfl rfl (fun _ => rfl)]
  simp only [stretch, ramp, List.map_cons, List.map_nil]
  norm_num [Option.filter]

/-- The rows of the spectrum and of the extrapolation depend on their own time only, and so do the effects. -/
theorem ramp_rows (z : ℚ) : RowSed ramp (rampState z) :=
  fun _ ws => Or.inl ⟨fun t => ws.map fun w => t + w, fun _ => by simp, fun _ => rfl⟩

theorem flat_rows : RowExt flat := ⟨fun _ f qs => qs.map fun _ => f, fun _ _ _ => by simp, fun _ _ _ => rfl⟩

theorem zip_rows (f : ℚ → List ℚ → List ℚ) (g : ℚ → List ℚ) : ∀ ts : List ℚ,
    List.zipWith f ts (ts.map g) = ts.map fun t => f t (g t)
  | [] => rfl
  | t :: ts => by simp [zip_rows f g ts]

theorem scale_rows (rest : Bool) (c : ℚ) : RowEffect (scaleBy rest c) := by
  intro p ws
  refine Or.inl ⟨fun t row => row.map fun x => c * x + (if rest then 0 else t), fun _ _ => by simp, ?_⟩
  intro ts r rowf
  show Except.ok (List.zipWith (fun t row => row.map fun x => c * x + (if rest then 0 else t)) ts (ts.map rowf), r) = _
  rw [zip_rows]

/-- The model with three effects, attached in this order. -/
def dressed : SEDModel Unit Unit Nat ℚ := ((ramp.addEffect (scaleBy false 10) false).addEffect (scaleBy true 3) false).addEffect (scaleBy false 2) false

example : dressed.restEffects.length = 1 ∧ dressed.obsEffects.length = 2 := ⟨rfl, rfl⟩

/-- C33: what `list_effects` gives. -/
example : dressed.listEffects = [scaleBy true 3, scaleBy false 10, scaleBy false 2] := rfl

/-- C33: evaluation with the effects in the order they were attached, those of the rest frame first. -/
example : ∃ out, dressed.evaluateSingle () [5, 9] [2, 8, 30] (rampState 1) 7 () = .ok (out, 7) ∧
    (∃ p zs sed mid, (rampState 1).get? ramp.nodeString = some p ∧ Frame true p zs ∧
      ramp.sedExtrapolated () ([5, 9].map (frameTime zs)) ([2, 8, 30].map (frameWave zs)) (rampState 1) () = .ok sed ∧
      Applied p ([5, 9].map (frameTime zs)) ([2, 8, 30].map (frameWave zs)) [scaleBy true 3] (sed, 7) mid ∧
      Applied p [5, 9] [2, 8, 30] [scaleBy false 10, scaleBy false 2]
        (mid.1.map (fun row => row.map fun x => x * frameFactor zs), mid.2) (out, 7)) ∧
    out = [[735, 975, 1695], [987, 1227, 1947]] := by
  have h : dressed.evaluateSingle () [5, 9] [2, 8, 30] (rampState 1) 7 () = .ok ([[735, 975, 1695], [987, 1227, 1947]], 7) := by
    with_unfolding_all rfl
  exact ⟨_, h, (C33_order ramp ⟨rfl, rfl⟩ [(scaleBy false 10, false), (scaleBy true 3, false), (scaleBy false 2, false)] () () [5, 9] [2, 8, 30]
    (rampState 1) 7 _).1 h, rfl⟩

/-- Two filters with different wavelengths and transmissions. -/
def gPb : Passband ℚ := ⟨"LSST_g".toList, "g".toList, [(4, 1), (6, 2), (8, 1)], [(4, 1/6), (6, 1/3), (8, 1/6)], [4, 6, 8], some 2⟩
def rPb : Passband ℚ := ⟨"LSST_r".toList, "r".toList, [(10, 1), (20, 1), (30, 1)], [(10, 1/20), (20, 1/20), (30, 1/20)], [10, 20, 30], some 10⟩
def bands : PassbandGroup ℚ :=
  ⟨[("LSST_g".toList, gPb), ("LSST_r".toList, rPb)], [("g".toList, ["LSST_g".toList]), ("r".toList, ["LSST_r".toList])],
    [4, 6, 8, 10, 20, 30], [("LSST_g".toList, .slice 0 3), ("LSST_r".toList, .slice 3 6)]⟩

theorem dressed_rows : ∀ e ∈ dressed.restEffects ++ dressed.obsEffects, RowEffect e := by
  intro e he
  have : e = scaleBy true 3 ∨ e = scaleBy false 10 ∨ e = scaleBy false 2 := by
    rcases List.mem_append.1 he with h | h
    · exact Or.inl (List.mem_singleton.1 h)
    · rcases List.mem_cons.1 h with h | h
      · exact Or.inr (Or.inl h)
      · exact Or.inr (Or.inr (List.mem_singleton.1 h))
  rcases this with rfl | rfl | rfl <;> exact scale_rows _ _

theorem dressed_table : evaluateBandfluxes (dressed.evaluateBandfluxesSingle ()) (.group bands) [5, 9, 9, 7]
    (some ["g".toList, "g".toList, "r".toList, "r".toList]) [rampState 1, rampState 0] 7 =
      .ok ([[855, 1107, 1797, 1671], [675, 927, 1167, 1041]], 7) := by
  have hu : npUnique ["g".toList, "g".toList, "r".toList, "r".toList] = ["g".toList, "r".toList] := by
    unfold npUnique
    rw [List.mergeSort_of_pairwise (by simp [List.pairwise_cons]; decide)]
    decide +kernel
  simp only [evaluateBandfluxes, BandArg.resolve, SEDModel.evaluateBandfluxesSingle, eachSample, bandfluxesSingle, hu]
  with_unfolding_all rfl

/-- C31: every flux of a table over two objects and four observations (unsorted times, two filters) is the one computed alone. -/
example : evaluateBandfluxes (dressed.evaluateBandfluxesSingle ()) (.group bands) [5] (some ["g".toList]) [rampState 0] 7 = .ok ([[675]], 7) ∧
    evaluateBandfluxes (dressed.evaluateBandfluxesSingle ()) (.group bands) [7] (some ["r".toList]) [rampState 1] 7 = .ok ([[1671]], 7) := by
  obtain ⟨-, -, h⟩ := (C31_sed_model dressed () [rampState 1, rampState 0]
    (by intro st hst; simp only [List.mem_cons, List.not_mem_nil, or_false] at hst; rcases hst with rfl | rfl; exacts [ramp_rows 1, ramp_rows 0])
    (by intro ex hex; cases hex; exact flat_rows) dressed_rows 7 bands [5, 9, 9, 7] ["g".toList, "g".toList, "r".toList, "r".toList] _).1 dressed_table
  exact ⟨(h 1 _ _ rfl rfl).2 0 _ _ _ rfl rfl rfl, (h 0 _ _ rfl rfl).2 3 _ _ _ rfl rfl rfl⟩

theorem even_step {v : List ℚ} {d : ℚ} (h : v.IsChain fun a b => b - a = d) : ∀ e, IsStep v e → e = d := by
  rintro e ⟨i, a, b, ha, hb, rfl⟩
  obtain ⟨h1, h1'⟩ := List.getElem?_eq_some_iff.1 ha
  obtain ⟨h2, h2'⟩ := List.getElem?_eq_some_iff.1 hb
  have := List.isChain_iff_getElem.1 h i h2
  rw [h1', h2'] at this
  exact this

/-- C48: on evenly spaced axes a grid filled with `2 + 3 a - c + 4 a c` is reproduced between its points. -/
example : ∃ b : Bicubic ℚ, mkBicubic [0, 1, 2, 3, 4, 5] [0, 2, 4, 6, 8, 10]
      ([0, 1, 2, 3, 4, 5].map fun a => [0, 2, 4, 6, 8, 10].map fun c => 2 + 3 * a + (-1) * c + 4 * a * c) = .ok b ∧
    b.at (7 / 3) (25 / 4) = some (2 + 3 * (7 / 3) + (-1) * (25 / 4) + 4 * (7 / 3) * (25 / 4)) ∧
    b.at (7 / 3) (25 / 4) = some (733 / 12) := by
  obtain ⟨b, h1, -⟩ := accepted_spec (x := [0, 1, 2, 3, 4, 5]) (y := [0, 2, 4, 6, 8, 10])
    (z := [0, 1, 2, 3, 4, 5].map fun a => [0, 2, 4, 6, 8, 10].map fun c => 2 + 3 * a + (-1) * c + 4 * a * c) (p := fun _ => true) (by decide +kernel)
  have h : b.at (7 / 3) (25 / 4) = some (2 + 3 * (7 / 3) + (-1) * (25 / 4) + 4 * (7 / 3) * (25 / 4)) := by
    refine C48_bilinear h1 (hx := 1) (hy := 2) ?_ ?_ ?_ ⟨0, by simp, by norm_num⟩ ⟨5, by simp, by norm_num⟩ ⟨0, by simp, by norm_num⟩ ⟨10, by simp, by norm_num⟩
    · exact even_step (by norm_num)
    · exact even_step (by norm_num)
    · intro i j r a c v h1 h2 h3 h4
      rw [List.getElem?_map, h1] at h3
      cases h3
      rw [List.getElem?_map, h2] at h4
      cases h4
      rfl
  exact ⟨b, h1, h, h.trans (by norm_num)⟩

end LCL.EvalExamples
