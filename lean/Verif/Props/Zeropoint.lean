import Verif.Props.Photometry
import Mathlib.Analysis.Real.Pi.Bounds

/-!
# Property C51 (photometric zero points)
-/

namespace LCL.ZeropointProps
open LCL LCL.PhotSpec LCL.PhotometryProps LCL.ObsTable Real

theorem mapM_castLike {d : Dict Name ZNum} {x : ℝ} {bands : List Name} {l : List ℝ}
    (h : bands.mapM (fun b => castLike (.flt x) (d.get? b)) = .ok l) :
    bands.map (fun b => (d.get? b).map ZNum.val) = l.map some := by
  induction bands generalizing l with
  | nil => cases h; rfl
  | cons b bs ih =>
    rw [List.mapM_cons] at h
    cases hb : d.get? b with
    | none => rw [hb] at h; cases h
    | some v =>
      rw [hb] at h
      cases hr : bs.mapM (fun b => castLike (.flt x) (d.get? b)) with
      | error e => rw [hr] at h; cases h
      | ok l' =>
        rw [hr] at h
        have : l = v.val :: l' := by cases h; rfl
        subst this
        simp [ih hr, hb]

theorem mapM_castLike_ok {d : Dict Name ZNum} {first : ZNum} {bands : List Name} (h : ∀ b ∈ bands, d.has b = true) :
    ∃ l, bands.mapM (fun b => castLike first (d.get? b)) = .ok l := by
  induction bands with
  | nil => exact ⟨[], rfl⟩
  | cons b bs ih =>
    obtain ⟨l, hl⟩ := ih (fun x hx => h x (List.mem_cons_of_mem _ hx))
    have hb := h b (by simp)
    unfold Dict.has at hb
    cases hg : d.get? b with
    | none => rw [hg] at hb; cases hb
    | some v =>
      cases first with
      | flt x => exact ⟨v.val :: l, by rw [List.mapM_cons, hg, hl]; rfl⟩
      | int n => exact ⟨truncInt v.val :: l, by rw [List.mapM_cons, hg, hl]; rfl⟩

/-- The entry of the first band is a float. -/
def FloatFirst (d : Dict Name ZNum) (bands : List Name) : Prop :=
  ∃ b rest x, bands = b :: rest ∧ d.get? b = some (.flt x)

theorem vecGet_spec {d : Dict Name ZNum} {bands : List Name} {l : List ℝ} (hf : FloatFirst d bands)
    (h : vecGet d bands = .ok l) : bands.map (fun b => (d.get? b).map ZNum.val) = l.map some := by
  obtain ⟨b, rest, x, rfl, hx⟩ := hf
  simp only [vecGet, hx] at h
  exact mapM_castLike h

theorem vecGet_ok {d : Dict Name ZNum} {bands : List Name} (h0 : bands ≠ []) (h : ∀ b ∈ bands, d.has b = true) :
    ∃ l, vecGet d bands = .ok l := by
  cases bands with
  | nil => exact absurd rfl h0
  | cons b rest =>
    have hb := h b (by simp)
    unfold Dict.has at hb
    cases hg : d.get? b with
    | none => rw [hg] at hb; cases hb
    | some v => simp only [vecGet, hg]; exact mapM_castLike_ok h

/-- C51. If the flux zero points can be computed (the entries of the first observation's band being floats), then
every observation's zero point is the flux of the magnitude `instr[band] + ext[band] * (airmass - 1) + 2.5 log10
exptime` of that observation. -/
theorem C51_zero_points_partial {instr ext : Dict Name ZNum} {bands : List Name} {airmass exptime l : List ℝ}
    (hi : FloatFirst instr bands) (he : FloatFirst ext bands)
    (ha : airmass.length = bands.length) (ht : exptime.length = bands.length)
    (h : fluxZeropoint instr ext bands airmass exptime = .ok l) :
    l.length = bands.length ∧ ∀ (i : Nat) (b : Name) (x t : ℝ), bands[i]? = some b → airmass[i]? = some x →
      exptime[i]? = some t → ∃ zi ze, instr.get? b = some zi ∧ ext.get? b = some ze ∧
        l[i]? = some (mag2flux (zi.val + ze.val * (x - 1) + 2.5 * logb 10 t)) := by
  unfold fluxZeropoint magZeropoint at h
  cases h1 : vecGet instr bands with
  | error e => rw [h1] at h; cases h
  | ok z =>
    rw [h1] at h
    simp only at h
    cases h2 : vecGet ext bands with
    | error e => rw [h2] at h; cases h
    | ok w =>
      rw [h2] at h
      simp only [Except.ok.injEq] at h
      subst h
      have e1 := vecGet_spec hi h1
      have e2 := vecGet_spec he h2
      have l1 : z.length = bands.length := by have := congrArg List.length e1; simpa using this.symm
      have l2 : w.length = bands.length := by have := congrArg List.length e2; simpa using this.symm
      refine ⟨by simp [l1, l2, ha, ht], ?_⟩
      intro i b x t hb hx ht'
      have f1 := congrArg (fun q => q[i]?) e1
      have f2 := congrArg (fun q => q[i]?) e2
      simp only [List.getElem?_map, hb, Option.map_some] at f1 f2
      cases hzi : z[i]? with
      | none => rw [hzi] at f1; cases f1
      | some zv =>
        cases hwi : w[i]? with
        | none => rw [hwi] at f2; cases f2
        | some wv =>
          rw [hzi] at f1
          rw [hwi] at f2
          simp only [Option.map_some, Option.some.injEq] at f1 f2
          cases hgi : instr.get? b with
          | none => rw [hgi] at f1; cases f1
          | some zi =>
            cases hge : ext.get? b with
            | none => rw [hge] at f2; cases f2
            | some ze =>
              rw [hgi] at f1
              rw [hge] at f2
              simp only [Option.map_some, Option.some.injEq] at f1 f2
              refine ⟨zi, ze, rfl, rfl, ?_⟩
              have z1 : (z.zip w)[i]? = some (zv, wv) := List.getElem?_zip_eq_some.2 ⟨hzi, hwi⟩
              have z2 : (airmass.zip exptime)[i]? = some (x, t) := List.getElem?_zip_eq_some.2 ⟨hx, ht'⟩
              rw [List.getElem?_map, List.getElem?_zipWith, z1, z2, f1, f2]
              rfl

/-- C51: it succeeds for any non-empty list of known bands; an unknown band raises TypeError or the like, never a
number. -/
theorem C51_zero_points_succeed {instr ext : Dict Name ZNum} {bands : List Name} (airmass exptime : List ℝ) (h0 : bands ≠ []) :
    ((∀ b ∈ bands, instr.has b = true ∧ ext.has b = true) ↔ ∃ l, fluxZeropoint instr ext bands airmass exptime = .ok l) := by
  constructor
  · intro h
    obtain ⟨z, hz⟩ := vecGet_ok h0 (fun b hb => (h b hb).1)
    obtain ⟨w, hw⟩ := vecGet_ok h0 (fun b hb => (h b hb).2)
    unfold fluxZeropoint magZeropoint
    rw [hz, hw]
    exact ⟨_, rfl⟩
  · rintro ⟨l, h⟩
    have key : ∀ (d : Dict Name ZNum) l, vecGet d bands = .ok l → ∀ b ∈ bands, d.has b = true := by
      intro d l hd
      have step : ∀ (first : ZNum) (bs : List Name) l, bs.mapM (fun b => castLike first (d.get? b)) = .ok l →
          ∀ b ∈ bs, d.has b = true := by
        intro first bs
        induction bs with
        | nil => intro l _ b hb; simp at hb
        | cons x xs ih =>
          intro l hl b hb
          rw [List.mapM_cons] at hl
          cases hx : castLike first (d.get? x) with
          | error e => rw [hx] at hl; cases hl
          | ok v =>
            rw [hx] at hl
            cases hxs : xs.mapM (fun b => castLike first (d.get? b)) with
            | error e => rw [hxs] at hl; cases hl
            | ok l' =>
              rcases List.mem_cons.1 hb with rfl | hb
              · unfold Dict.has
                cases hg : d.get? b with
                | none => rw [hg] at hx; cases hx
                | some _ => rfl
              · exact ih l' hxs b hb
      cases bands with
      | nil => exact absurd rfl h0
      | cons b0 rest =>
        cases hg : d.get? b0 with
        | none => simp only [vecGet, hg] at hd; cases hd
        | some first => simp only [vecGet, hg] at hd; exact step first _ l hd
    unfold fluxZeropoint magZeropoint at h
    cases h1 : vecGet instr bands with
    | error e => rw [h1] at h; cases h
    | ok z =>
      rw [h1] at h
      simp only at h
      cases h2 : vecGet ext bands with
      | error e => rw [h2] at h; cases h
      | ok w => intro b hb; exact ⟨key _ _ h1 b hb, key _ _ h2 b hb⟩

/-- C51: a source whose magnitude is the magnitude zero point gives one electron; every magnitude brighter than the
zero point by `2.5 log10 n` gives `n` electrons. -/
theorem C51_electrons (zp n : ℝ) (hn : 0 < n) : mag2flux zp / mag2flux zp = 1 ∧
    mag2flux (zp - 2.5 * logb 10 n) / mag2flux zp = n := by
  refine ⟨div_self (mag2flux_pos zp).ne', ?_⟩
  unfold mag2flux
  rw [← rpow_sub (by norm_num), show -0.4 * (zp - 2.5 * logb 10 n - magAbZp) - -0.4 * (zp - magAbZp) = logb 10 n by ring]
  exact rpow_logb (by norm_num) (by norm_num) hn

/-- C51: an exposure longer by the factor `c` adds `2.5 log10 c` to the zero point magnitude, that is, the flux of
one electron is divided by `c`. -/
theorem C51_exposure (z k x t c : ℝ) (ht : 0 < t) (hc : 0 < c) :
    (z + k * (x - 1) + 2.5 * logb 10 (c * t)) = (z + k * (x - 1) + 2.5 * logb 10 t) + 2.5 * logb 10 c ∧
    mag2flux (z + k * (x - 1) + 2.5 * logb 10 (c * t)) = mag2flux (z + k * (x - 1) + 2.5 * logb 10 t) / c := by
  have h : (z + k * (x - 1) + 2.5 * logb 10 (c * t)) = (z + k * (x - 1) + 2.5 * logb 10 t) + 2.5 * logb 10 c := by
    rw [logb_mul hc.ne' ht.ne']; ring
  refine ⟨h, ?_⟩
  rw [h]
  generalize z + k * (x - 1) + 2.5 * logb 10 t = m
  unfold mag2flux
  rw [show -0.4 * (m + 2.5 * logb 10 c - magAbZp) = -0.4 * (m - magAbZp) - logb 10 c by ring, rpow_sub (by norm_num),
    rpow_logb (by norm_num) (by norm_num) hc]

/-! ### The five sigma limit -/

theorem limit_pos {b : ℝ} : 0 < limitElectrons b := by
  unfold limitElectrons
  have := sqrt_nonneg (25 + 4 * b)
  linarith

theorem limit_quadratic {b : ℝ} (hb : 0 ≤ b) : limitElectrons b ^ 2 = 25 * (limitElectrons b + b) := by
  have h := sq_sqrt (show 0 ≤ 25 + 4 * b by linarith)
  unfold limitElectrons
  nlinarith

/-- The electrons of a source at the limiting magnitude. -/
theorem limit_flux {maglim sky fwhm gain ro dark t n : ℝ} :
    mag2flux maglim / mag2flux (zpFromMaglim maglim sky fwhm gain ro dark t n) =
      limitElectrons (maglimBackground sky fwhm gain ro dark t n) := by
  unfold mag2flux zpFromMaglim
  rw [← rpow_sub (by norm_num)]
  have e : ∀ L : ℝ, -0.4 * (maglim - magAbZp) - -0.4 * (2.5 * L + maglim - magAbZp) = L := by intro L; ring
  rw [e]
  exact rpow_logb (by norm_num) (by norm_num) limit_pos

/-- The signal to noise of a source with the electrons of the limit for background `b`, over a background `b'`. -/
theorem snr_five_iff {b b' : ℝ} (hb : 0 ≤ b) (hb' : 0 ≤ b') :
    limitElectrons b / √(limitElectrons b + b') = 5 ↔ b' = b := by
  have hF := @limit_pos b
  have hs : 0 < √(limitElectrons b + b') := sqrt_pos.2 (by linarith)
  have hq := limit_quadratic hb
  have hsq := sq_sqrt (show 0 ≤ limitElectrons b + b' by linarith)
  rw [div_eq_iff hs.ne']
  constructor
  · intro h
    have h2 := congrArg (fun x => x ^ 2) h
    simp only [mul_pow, hsq] at h2
    have : limitElectrons b ^ 2 = 25 * (limitElectrons b + b') := by rw [h2]; norm_num
    linarith
  · rintro rfl
    have : (limitElectrons b') ^ 2 = (5 * √(limitElectrons b' + b')) ^ 2 := by rw [mul_pow, hsq, hq]; norm_num
    exact (pow_left_inj₀ hF.le (by linarith) (by norm_num)).1 this

/-- C51. The zero point derived from a five-sigma limiting magnitude does what it says: with it, a source of the
limiting magnitude has a signal to noise ratio of 5 in the noise model. -/
theorem C51_five_sigma {maglim sky fwhm gain ro dark t n : ℝ} (h1 : 0 ≤ sky) (h2 : 0 ≤ gain) (h3 : 0 ≤ dark) (h4 : 0 ≤ t)
    (h5 : 0 ≤ n) :
    ∃ e, poissonStd (mag2flux maglim)
        { exptime := t * n, count := n, psf := 2.266 * fwhm ^ 2, sky := sky * gain
          zp := mag2flux (zpFromMaglim maglim sky fwhm gain ro dark t n), readout := .num ro, dark := dark } = some e ∧
      mag2flux maglim / e = 5 := by
  set zp := mag2flux (zpFromMaglim maglim sky fwhm gain ro dark t n) with hzp
  have hz : 0 < zp := mag2flux_pos _
  have hb : 0 ≤ maglimBackground sky fwhm gain ro dark t n := by
    unfold maglimBackground npixOf
    positivity
  have hv : totalVariance (mag2flux maglim) (NoiseArgs.mk (t * n) n (2.266 * fwhm ^ 2) (sky * gain) zp (.num ro) dark) =
      limitElectrons (maglimBackground sky fwhm gain ro dark t n) + maglimBackground sky fwhm gain ro dark t n := by
    rw [← @limit_flux maglim]
    unfold totalVariance readoutVariance maglimBackground npixOf
    simp only [← hzp]
    ring
  have hF := @limit_pos (maglimBackground sky fwhm gain ro dark t n)
  refine ⟨_, std_eq hz.ne' (by rw [hv]; linarith), ?_⟩
  rw [hv]
  have := (snr_five_iff hb hb).2 rfl
  rw [← this, ← @limit_flux maglim, ← hzp]
  have hs : √(mag2flux maglim / zp + maglimBackground sky fwhm gain ro dark t n) ≠ 0 := by
    rw [hzp, limit_flux]; exact (sqrt_pos.2 (by linarith)).ne'
  field_simp

/-- C51 fails for a ZTF table with its own camera values: the zero point is computed from fixed constants (gain
6.2, readout noise 8), so that with other values of the survey the limiting magnitude is no longer a five sigma
detection. Here for a table declared free of readout noise and of sky counts. -/
theorem C51_ztf_constants_counterexample {maglim sky fwhm t : ℝ} (h1 : 0 ≤ sky) (hf : fwhm ≠ 0) :
    ∃ e, poissonStd (mag2flux maglim) (ztfArgs 0 0 0 t fwhm sky (ztfZp maglim sky fwhm t)) = some e ∧
      mag2flux maglim / e ≠ 5 := by
  set zp := ztfZp maglim sky fwhm t with hzp
  have hz : 0 < zp := mag2flux_pos _
  have hf2 : 0 < fwhm ^ 2 := by positivity
  have hb : 0 < maglimBackground sky fwhm 6.2 8 0 t 1 := by
    unfold maglimBackground npixOf
    have : 0 ≤ sky * (2.266 * fwhm ^ 2) * 6.2 := by positivity
    nlinarith
  have hfl : mag2flux maglim / zp = limitElectrons (maglimBackground sky fwhm 6.2 8 0 t 1) := limit_flux
  have hv : totalVariance (mag2flux maglim) (ztfArgs 0 0 0 t fwhm sky zp) =
      limitElectrons (maglimBackground sky fwhm 6.2 8 0 t 1) + 0 := by
    rw [← hfl]
    unfold totalVariance readoutVariance ztfArgs
    simp
  have hF := @limit_pos (maglimBackground sky fwhm 6.2 8 0 t 1)
  refine ⟨_, std_eq hz.ne' (by rw [hv]; linarith), ?_⟩
  rw [hv]
  intro h
  have h5 : limitElectrons (maglimBackground sky fwhm 6.2 8 0 t 1) /
      √(limitElectrons (maglimBackground sky fwhm 6.2 8 0 t 1) + 0) = 5 := by
    rw [← h, ← hfl]
    have hs : √(mag2flux maglim / zp + 0) ≠ 0 := by
      rw [hfl]; exact (sqrt_pos.2 (by linarith)).ne'
    have : (ztfArgs 0 0 0 t fwhm sky zp).zp = zp := rfl
    rw [this]
    field_simp
  have := (snr_five_iff hb.le le_rfl).1 h5
  linarith

/-- C51 fails when the first entry used is a Python int: all other zero points are then truncated to integers. -/
theorem C51_integer_entry_counterexample :
    vecGet [("g".toList, .int 28), ("r".toList, .flt 28.36)] ["g".toList, "r".toList] = .ok [28, 28] ∧
    vecGet [("g".toList, .int 28), ("r".toList, .flt 28.36)] ["r".toList, "g".toList] = .ok [28.36, 28] := by
  have hfl : ⌊(28.36 : ℝ)⌋ = 28 := by rw [Int.floor_eq_iff]; norm_num
  have t1 : truncInt (28.36 : ℝ) = 28 := by unfold truncInt; rw [if_pos (by norm_num), hfl]
  have v1 : (ZNum.int 28).val = 28 := by simp [ZNum.val]
  have t2 : truncInt (28 : ℝ) = 28 := by
    have : ⌊(28 : ℝ)⌋ = 28 := by rw [Int.floor_eq_iff]; norm_num
    unfold truncInt; rw [if_pos (by norm_num), this]
  have hg : Dict.get? [("g".toList, ZNum.int 28), ("r".toList, ZNum.flt 28.36)] "g".toList = some (.int 28) := rfl
  have hr : Dict.get? [("g".toList, ZNum.int 28), ("r".toList, ZNum.flt 28.36)] "r".toList = some (.flt 28.36) := rfl
  have v2 : (ZNum.flt 28.36).val = 28.36 := rfl
  constructor
  · simp only [vecGet, hg, List.mapM_cons, List.mapM_nil, hr, castLike, v1, v2, t1, t2]
    show Except.ok [((28 : Int) : ℝ), ((28 : Int) : ℝ)] = _
    norm_num
  · simp only [vecGet, hg, List.mapM_cons, List.mapM_nil, hr, castLike, v1, v2]
    rfl

/-- C51 fails for a table without rows: computing its zero points raises ValueError. -/
theorem C51_empty_counterexample (instr ext : Dict Name ZNum) : fluxZeropoint instr ext [] [] [] = .error .valueError := rfl

example : FloatFirst [("g".toList, .flt 28.508)] ["g".toList, "g".toList] ∧
    ∃ l, fluxZeropoint [("g".toList, .flt 28.508)] [("g".toList, .flt (-0.208))] ["g".toList, "g".toList] [1, 1.2] [30, 30] = .ok l :=
  ⟨⟨_, _, _, rfl, rfl⟩, (C51_zero_points_succeed _ _ (by simp)).1 (by
    intro b hb
    simp only [List.mem_cons, List.not_mem_nil, or_false, or_self] at hb
    subst hb
    exact ⟨rfl, rfl⟩)⟩

end LCL.ZeropointProps
