import Verif.Props.FakeObs

/-!
# Property C51 for the zero point columns of the survey tables
-/

namespace LCL.SurveyZpProps
open LCL LCL.PhotSpec LCL.ObsSpec LCL.ObsLemmas LCL.ObsTable LCL.SurveyErrorProps LCL.FakeObsProps LCL.ZeropointProps Real

/-- C51: the zero point column an LSST table derives holds for every row the zero point of the filter, airmass and
exposure time of that row; no other column changes. -/
theorem C51_opsim_rows_partial {instr ext : Dict Name ZNum} {t t' : ObsTable} {bands : List Name} {airmass exptime : List ℝ}
    (hb : t.cols.get? "filter".toList = some (bands.map Cell.str)) (ha : t.cols.get? "airmass".toList = some (airmass.map Cell.num))
    (he : t.cols.get? "exptime".toList = some (exptime.map Cell.num)) (hwf : WF t)
    (hi : FloatFirst instr bands) (hx : FloatFirst ext bands) (h : opsimAssignZp instr ext t = .ok t') :
    (∀ (i : Nat) (b : Name) (x s : ℝ), bands[i]? = some b → airmass[i]? = some x → exptime[i]? = some s →
      ∃ zi ze, instr.get? b = some zi ∧ ext.get? b = some ze ∧
        rowNum t' "zp".toList i = some (mag2flux (zi.val + ze.val * (x - 1) + 2.5 * logb 10 s))) ∧
    ∀ other, other ≠ "zp".toList → t'.cols.get? other = t.cols.get? other := by
  have l1 : bands.length = t.len := by have := hwf.1 _ (Dict.mem_of_get? hb); simpa using this
  have l2 : airmass.length = t.len := by have := hwf.1 _ (Dict.mem_of_get? ha); simpa using this
  have l3 : exptime.length = t.len := by have := hwf.1 _ (Dict.mem_of_get? he); simpa using this
  unfold opsimAssignZp at h
  split at h
  · rw [hb] at h
    dsimp only at h
    rw [str_inv] at h
    dsimp only at h
    rw [numCol_ok.2 ha] at h
    dsimp only at h
    rw [numCol_ok.2 he] at h
    dsimp only at h
    cases hz : fluxZeropoint instr ext bands airmass exptime with
    | error e => rw [hz] at h; cases h
    | ok zp =>
      rw [hz] at h
      dsimp only at h
      obtain ⟨_, l, hll, rfl, hl'⟩ := addColumn_ok h
      simp only at hl'
      subst hl'
      refine ⟨?_, fun other ho => Dict.get?_set_ne _ _ (Ne.symm ho)⟩
      intro i b x s h1 h2 h3
      obtain ⟨zi, ze, g1, g2, g3⟩ := (C51_zero_points_partial hi hx (l2.trans l1.symm) (l3.trans l1.symm) hz).2 i b x s h1 h2 h3
      refine ⟨zi, ze, g1, g2, ?_⟩
      unfold rowNum
      rw [Dict.get?_set_self]
      simp [g3]
  · cases h

/-- C51: the zero point column a ZTF table derives holds for every row the zero point that makes a source of that
row's limiting magnitude a five sigma detection for the standard camera values (`C51_five_sigma`). -/
theorem C51_ztf_rows {t t' : ObsTable} {maglim sky fwhm exptime : List ℝ}
    (h1 : t.cols.get? "maglim".toList = some (maglim.map Cell.num)) (h2 : t.cols.get? "sky".toList = some (sky.map Cell.num))
    (h3 : t.cols.get? "fwhm".toList = some (fwhm.map Cell.num)) (h4 : t.cols.get? "exptime".toList = some (exptime.map Cell.num))
    (h : ztfAssignZp t = .ok t') :
    (∀ (i : Nat) (m s f e : ℝ), maglim[i]? = some m → sky[i]? = some s → fwhm[i]? = some f → exptime[i]? = some e →
        rowNum t' "zp".toList i = some (mag2flux (zpFromMaglim m s f 6.2 8 0 e 1))) ∧
    ∀ other, other ≠ "zp".toList → t'.cols.get? other = t.cols.get? other := by
  unfold ztfAssignZp at h
  split at h
  · rw [numCol_ok.2 h1] at h
    dsimp only at h
    rw [numCol_ok.2 h2] at h
    dsimp only at h
    rw [numCol_ok.2 h3] at h
    dsimp only at h
    rw [numCol_ok.2 h4] at h
    dsimp only at h
    obtain ⟨_, l, hll, rfl, hl'⟩ := addColumn_ok h
    simp only at hl'
    subst hl'
    refine ⟨?_, fun other ho => Dict.get?_set_ne _ _ (Ne.symm ho)⟩
    intro i m s f e g1 g2 g3 g4
    have z1 : (maglim.zip sky)[i]? = some (m, s) := List.getElem?_zip_eq_some.2 ⟨g1, g2⟩
    have z2 : (fwhm.zip exptime)[i]? = some (f, e) := List.getElem?_zip_eq_some.2 ⟨g3, g4⟩
    unfold rowNum
    rw [Dict.get?_set_self]
    simp [List.getElem?_zipWith, z1, z2, ztfZp]
  · cases h

/-- C51: a table that lacks a column the zero points are derived from is rejected. -/
theorem C51_missing_column (t : ObsTable) :
    (∀ instr ext, (∃ c ∈ ["filter".toList, "airmass".toList, "exptime".toList], t.cols.get? c = none) →
      opsimAssignZp instr ext t = .error .valueError) ∧
    ((∃ c ∈ ["maglim".toList, "sky".toList, "fwhm".toList, "exptime".toList], t.cols.get? c = none) →
      ztfAssignZp t = .error .valueError) := by
  have key : ∀ l : List Name, (∃ c ∈ l, t.cols.get? c = none) → ¬ (l.all fun c => t.cols.has c) = true := by
    rintro l ⟨c, hc, hn⟩ hall
    have := List.all_eq_true.1 hall c hc
    unfold Dict.has at this
    rw [hn] at this
    cases this
  exact ⟨fun instr ext h => by unfold opsimAssignZp; rw [if_neg (key _ h)], fun h => by unfold ztfAssignZp; rw [if_neg (key _ h)]⟩

/-- A ZTF row. -/
noncomputable def ztfRow : ObsTable :=
  { cols := [("maglim".toList, [.num 20]), ("sky".toList, [.num 200]), ("fwhm".toList, [.num 2]), ("exptime".toList, [.num 30])],
    labels := [0], invColmap := [], survey := [], filters := [], tree := [], footprint := none }

example : ∃ t', ztfAssignZp ztfRow = .ok t' := by
  unfold ztfAssignZp
  rw [if_pos (show (["maglim".toList, "sky".toList, "fwhm".toList, "exptime".toList].all fun c => ztfRow.cols.has c) = true from rfl),
    show numCol ztfRow.cols "maglim".toList = .ok [20] from rfl]
  dsimp only
  rw [show numCol ztfRow.cols "sky".toList = .ok [200] from rfl]
  dsimp only
  rw [show numCol ztfRow.cols "fwhm".toList = .ok [2] from rfl]
  dsimp only
  rw [show numCol ztfRow.cols "exptime".toList = .ok [30] from rfl]
  exact ⟨_, rfl⟩

end LCL.SurveyZpProps
