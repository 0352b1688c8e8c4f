import Verif.Model.StaticFiles
import Verif.Props.BasicModels2
import Verif.Props.GridIO

/-!
# Property C124: static spectra read from files and from synphot
-/

namespace LCL.StaticFilesProps
open LCL LCL.StaticFiles LCL.BasicProps LCL.GridIOProps
variable {K : Type} [Field K] [LinearOrder K] [IsStrictOrderedRing K] {V R : Type}

/-- A spectrum: at least two wavelengths, increasing, each with its flux. -/
def Spectrum (l : List (K × K)) : Prop := 2 ≤ l.length ∧ (l.map (·.1)).Pairwise (· < ·)

/-- `H` is the spectrum `l`: its flux at its wavelengths, between the bounds of its fluxes elsewhere inside, zero outside. -/
structure Follows (l : List (K × K)) (H : K → K) : Prop where
  node : ∀ w f, (w, f) ∈ l → H w = f
  between : ∀ w lo hi, (∀ q ∈ l, lo ≤ q.2 ∧ q.2 ≤ hi) → (∃ q ∈ l, q.1 ≤ w) → (∃ q ∈ l, w ≤ q.1) → lo ≤ H w ∧ H w ≤ hi
  outside : ∀ w, (∀ q ∈ l, w < q.1) ∨ (∀ q ∈ l, q.1 < w) → H w = 0

theorem follows {l : List (K × K)} (h : Spectrum l) : ValidTable ⟨l.map (·.1), l.map (·.2)⟩ ∧ Follows l (tableAt ⟨l.map (·.1), l.map (·.2)⟩) := by
  have hv : ValidTable (⟨l.map (·.1), l.map (·.2)⟩ : SedTable K) := ⟨by simpa using h.1, h.2⟩
  obtain ⟨a, b, c, d⟩ := C83_table hv (by simp)
  refine ⟨hv, ⟨?_, ?_, ?_⟩⟩
  · intro w f hm
    obtain ⟨k, hk⟩ := List.mem_iff_getElem?.1 hm
    exact a k w f (by simp [hk]) (by simp [hk])
  · rintro w lo hi hf ⟨q, hq, hl⟩ ⟨q', hq', hl'⟩
    exact b w lo hi (by intro y hy; obtain ⟨q, hq, rfl⟩ := List.mem_map.1 hy; exact hf q hq) ⟨_, List.mem_map_of_mem hq, hl⟩ ⟨_, List.mem_map_of_mem hq', hl'⟩
  · rintro w (hw | hw)
    · exact c w (by intro y hy; obtain ⟨q, hq, rfl⟩ := List.mem_map.1 hy; exact hw q hq)
    · exact d w (by intro y hy; obtain ⟨q, hq, rfl⟩ := List.mem_map.1 hy; exact hw q hq)

/-- What a model with one table shows, whatever the state it is evaluated in. -/
def Shows (tables : List (SedTable K)) (H : K → K) : Prop :=
  ∀ (node : Name) (st : SState K) (p : Params K) (z t0 : K) (times waves : List K) (r : R), st.get? node = some p → p.get? "selected_idx".toList = some (.num 0) → z ≠ -1 →
    p.get? "redshift".toList = some (.num z) → (z ≠ 0 → p.get? "t0".toList = some (.num t0)) → waves ≠ [] →
    (staticSedModel node tables : SEDModel V (Kw K) R K).evaluateSingle Kw.empty times waves st r Kw.empty =
      .ok (times.map (fun _ => waves.map fun w => (1 + z) * H (w / (1 + z))), r)

theorem shows_table {t : SedTable K} (h : ValidTable t) : Shows (V := V) (R := R) [t] (tableAt t) := by
  intro node st p z t0 times waves r hp hx hz1 hz ht hw
  exact C83_evaluate (i := 0) (by intro t' h'; rw [List.mem_singleton.1 h']; exact h) hp rfl (by rw [hx]; simp) hz1 hz ht hw times r

/-- The rows of a two-column file. -/
def twoColumns (l : List (K × K)) : NpArr K := .two 2 (l.map fun q => [q.1, q.2])

theorem init_table {t : SedTable K} (h : ValidTable t) : staticSedInit (.array (.mat [t.waves, t.fluxes])) = .ok [t] := (C83_init_partial [] (.list [])).2.1 t |>.2 h

/-- C124, what holds of files. A spectrum written with `write_numpy_data` as a two-column array to a `.npy`, `.npz`, `.csv`, `.ecsv` or `.txt` file and loaded with `from_file` gives a model that
shows that spectrum. The full property has no condition on the suffix (`C124_dat_counterexample`). -/
theorem C124_file_partial (fs : Dict Name (FileContent K)) (path : Name) (l : List (K × K)) (hl : Spectrum l)
    (hs : pathSuffix path ∈ [".npy".toList, ".npz".toList, ".csv".toList, ".ecsv".toList, ".txt".toList]) :
    ∃ fs' tables H, writeNumpy fs path (twoColumns l) = .ok fs' ∧ fromFile fs' path = .ok tables ∧ Follows l H ∧ Shows (V := V) (R := R) tables H := by
  obtain ⟨fs', h1, h2, _⟩ := C47_round_trip_partial fs path (twoColumns l) (by
    have hm : TextSafe (twoColumns l) := .mat le_rfl (by rw [List.length_map]; exact hl.1) (by intro r hr; obtain ⟨q, _, rfl⟩ := List.mem_map.1 hr; rfl)
    simp only [List.mem_cons, List.not_mem_nil, or_false] at hs ⊢
    tauto)
  obtain ⟨hv, hf⟩ := follows hl
  refine ⟨fs', [⟨l.map (·.1), l.map (·.2)⟩], _, h1, ?_, hf, shows_table hv⟩
  unfold fromFile
  rw [h2]
  unfold twoColumns transposed
  dsimp only
  rw [if_neg (by simp), List.map_map, List.map_map]
  exact init_table hv

/-- C124. A file that is not a two-column array of numbers, or whose wavelengths do not increase, or with fewer than two of them, is rejected. -/
theorem C124_file_rejects (fs : Dict Name (FileContent K)) (path : Name) :
    (∀ e, readNumpy fs path = .error e → fromFile fs path = .error e) ∧
    (∀ a, readNumpy fs path = .ok a → (¬ ∃ l, a = twoColumns l ∧ Spectrum l) → (∀ rows, a = .two 2 rows → ∀ r ∈ rows, r.length = 2) → fromFile fs path = .error .valueError) := by
  constructor
  · intro e h
    unfold fromFile; rw [h]
  · intro a h hno hwf
    unfold fromFile
    rw [h]
    cases a with
    | zero x => rfl
    | one l => rfl
    | more d l => rfl
    | two cols rows =>
      dsimp only
      by_cases hc : cols ≠ 2
      · rw [if_pos hc]
      · rw [if_neg hc]
        have hc : cols = 2 := not_not.1 hc
        subst hc
        have hw := hwf rows rfl
        rcases (C83_init_partial (K := K) [] (.array (transposed rows))).2.2.2 with ⟨ts, h1, h2, h3⟩ | h1
        · exfalso
          apply hno
          refine ⟨rows.map fun r => (r.getD 0 0, r.getD 1 0), ?_, ?_⟩
          · unfold twoColumns
            rw [List.map_map]
            congr 1
            conv_lhs => rw [← List.map_id rows]
            refine List.map_congr_left fun r hr => ?_
            obtain ⟨a, b, rfl⟩ := List.length_eq_two.1 (hw r hr)
            rfl
          · have : ∃ t, ts = [t] ∧ t.waves = rows.map fun r => r.getD 0 0 := by
              unfold staticSedInit SedArg.entries transposed at h1
              simp only [SedArray.len, List.length_cons, List.length_nil, if_true, checkTables] at h1
              unfold SedArray.check at h1
              dsimp only at h1
              by_cases q1 : (rows.map fun r => r.getD 0 0).length < 2
              · rw [if_pos q1] at h1; cases h1
              · rw [if_neg q1] at h1
                by_cases q2 : diffsPositive (rows.map fun r => r.getD 0 0) = true
                · rw [if_pos q2] at h1
                  injection h1 with h1
                  exact ⟨_, h1.symm, rfl⟩
                · rw [if_neg q2] at h1; cases h1
            obtain ⟨t, rfl, ht⟩ := this
            obtain ⟨v1, v2⟩ := h3 t (by simp)
            rw [ht] at v1 v2
            refine ⟨by simpa using v1, ?_⟩
            rw [List.map_map]
            exact v2
        · exact h1

/-- C124. A spectrum taken from a synphot model in its rest frame shows, at the wavelengths it was sampled at, the photon flux of the model times the energy of a photon, as a flux density in nJy;
a redshifted synphot model is rejected. -/
theorem C124_synphot_partial (sp : SpModel K) (waves : Option (List K)) :
    (sp.z = 0 → 2 ≤ (waves.getD sp.waveset).length → (waves.getD sp.waveset).Pairwise (· < ·) →
      ∃ tables H, fromSynphot sp waves = .ok tables ∧ Follows ((waves.getD sp.waveset).map fun w => (w, sp.photlam w * 6.62607015e-27 * w / 1e-32)) H ∧ Shows (V := V) (R := R) tables H) ∧
    (0 < sp.z → fromSynphot sp waves = .error .valueError) := by
  constructor
  · intro hz h1 h2
    let l : List (K × K) := (waves.getD sp.waveset).map fun w => (w, photlamToNJy w (sp.photlam w))
    have e1 : l.map (·.1) = waves.getD sp.waveset := by
      show ((waves.getD sp.waveset).map fun w => (w, photlamToNJy w (sp.photlam w))).map (·.1) = _
      rw [List.map_map]; exact List.map_id _
    have e2 : l.map (·.2) = (waves.getD sp.waveset).map fun w => photlamToNJy w (sp.photlam w) := by
      show ((waves.getD sp.waveset).map fun w => (w, photlamToNJy w (sp.photlam w))).map (·.2) = _
      rw [List.map_map]; rfl
    obtain ⟨hv, hf⟩ := follows (l := l) ⟨by simpa [l] using h1, by rw [e1]; exact h2⟩
    refine ⟨[⟨l.map (·.1), l.map (·.2)⟩], _, ?_, ?_, shows_table hv⟩
    · unfold fromSynphot
      rw [if_neg (by rw [hz]; exact lt_irrefl 0)]
      dsimp only
      have := init_table hv
      dsimp only at this
      rw [← this, e1, e2]
    · have : l = (waves.getD sp.waveset).map fun w => (w, sp.photlam w * 6.62607015e-27 * w / 1e-32) := by
        refine List.map_congr_left fun w _ => ?_
        congr 1
        unfold photlamToNJy planck
        norm_num
        ring
      rw [← this]
      exact hf
  · intro hz
    unfold fromSynphot
    rw [if_pos hz]

/-- C124 fails for `.dat` files: what `write_numpy_data` writes there `from_file` cannot read. -/
theorem C124_dat_counterexample : ∃ fs', writeNumpy [] "sed.dat".toList (twoColumns [((1 : ℚ), (5 : ℚ)), (2, 6)]) = .ok fs' ∧ Spectrum [((1 : ℚ), (5 : ℚ)), (2, 6)] ∧
    fromFile fs' "sed.dat".toList = .error .valueError := ⟨_, rfl, ⟨by simp, by simp⟩, rfl⟩

/-- C124 fails for blueshifted synphot models: one that is not in its rest frame is accepted if its redshift is negative. -/
theorem C124_blueshift_counterexample : ∃ tables, fromSynphot (⟨-1 / 2, [1, 2], fun _ => 1⟩ : SpModel ℚ) none = .ok tables := by
  refine ⟨[⟨[1, 2], [1, 2].map fun w => photlamToNJy w 1⟩], ?_⟩
  unfold fromSynphot
  rw [if_neg (by norm_num)]
  exact init_table (t := ⟨[1, 2], _⟩) ⟨by simp, by simp⟩

example : Spectrum [((1 : ℚ), (5 : ℚ)), (2, 6)] ∧ pathSuffix "/data/sed.csv".toList ∈ [".npy".toList, ".npz".toList, ".csv".toList, ".ecsv".toList, ".txt".toList] :=
  ⟨⟨by simp, by simp⟩, by decide⟩

end LCL.StaticFilesProps
