import Verif.Props.Zeropoint
import Verif.Props.ObsTable
import Verif.Model.FakeObs

/-!
# Property C69 (the flux error of an observation uses that observation's own row)
-/

namespace LCL.SurveyErrorProps
open LCL LCL.PhotSpec LCL.ObsSpec LCL.ObsLemmas LCL.ObsTable LCL.PhotometryProps Real

theorem mapM_get {β : Type} {c : List β} {index : List Nat} {l : List β} (h : index.mapM (fun i => c[i]?) = some l) :
    index.map (fun i => c[i]?) = l.map some := by
  induction index generalizing l with
  | nil => cases h; rfl
  | cons i is ih =>
    rw [List.mapM_cons] at h
    cases hi : c[i]? with
    | none => rw [hi] at h; cases h
    | some x =>
      rw [hi] at h
      cases hr : is.mapM (fun i => c[i]?) with
      | none => rw [hr] at h; cases h
      | some l' =>
        rw [hr] at h
        have : l = x :: l' := by cases h; rfl
        subst this
        simp [ih hr, hi]

theorem mapM_get_ok {β : Type} {c : List β} {index : List Nat} (h : ∀ i ∈ index, i < c.length) :
    ∃ l, index.mapM (fun i => c[i]?) = some l := by
  induction index with
  | nil => exact ⟨[], rfl⟩
  | cons i is ih =>
    obtain ⟨l, hl⟩ := ih (fun x hx => h x (List.mem_cons_of_mem _ hx))
    have hlt : i < c.length := h i (by simp)
    have hi : c[i]? = some c[i] := List.getElem?_eq_getElem hlt
    exact ⟨c[i] :: l, by rw [List.mapM_cons, hi, hl]; rfl⟩

/-- What a lookup of a column in the requested rows gives. -/
structure Picked (t : ObsTable) (name : Name) (index : List Nat) (l : List ℝ) : Prop where
  length : l.length = index.length
  row : ∀ (k i : Nat), index[k]? = some i → ∃ x, l[k]? = some x ∧ rowNum t name i = some x

theorem pick_ok {t : ObsTable} {name : Name} {index : List Nat} {l : List ℝ} (h : pickRows t name index = .ok l) :
    Picked t name index l := by
  unfold pickRows at h
  cases hc : numCol t.cols name with
  | error e => rw [hc] at h; cases h
  | ok c =>
    rw [hc] at h
    simp only at h
    cases hm : index.mapM (fun i => c[i]?) with
    | none => rw [hm] at h; cases h
    | some l' =>
      rw [hm] at h
      cases h
      have e := mapM_get hm
      refine ⟨by have := congrArg List.length e; simpa using this.symm, ?_⟩
      intro k i hk
      have f := congrArg (fun q => q[k]?) e
      simp only [List.getElem?_map, hk, Option.map_some] at f
      cases hl : l[k]? with
      | none => rw [hl] at f; cases f
      | some x =>
        rw [hl] at f
        simp only [Option.map_some, Option.some.injEq] at f
        refine ⟨x, rfl, ?_⟩
        unfold rowNum
        rw [numCol_ok.1 hc]
        simp [f]

theorem pick_succeeds {t : ObsTable} {name : Name} {index : List Nat} {c : List ℝ} (hc : numCol t.cols name = .ok c)
    (h : ∀ i ∈ index, i < c.length) : ∃ l, pickRows t name index = .ok l := by
  obtain ⟨l, hl⟩ := mapM_get_ok h
  unfold pickRows
  rw [hc]
  simp only [hl]
  exact ⟨l, rfl⟩

theorem survey_ok {t : ObsTable} {key : Name} {x : ℝ} (h : surveyNum t key = .ok x) : t.survey.get? key = some (.num x) := by
  unfold surveyNum at h
  cases hk : t.survey.get? key with
  | none => rw [hk] at h; cases h
  | some v =>
    rw [hk] at h
    cases v with
    | num y => simp only at h; injection h with h; rw [h]
    | none => cases h
    | perFilter d => cases h
    | text s => cases h

theorem zip5_spec {f : ℝ → ℝ → ℝ → ℝ → ℝ → NoiseArgs} : ∀ {n : Nat} {a b c d e : List ℝ}, a.length = n → b.length = n → c.length = n →
    d.length = n → e.length = n → (zip5 f a b c d e).length = n ∧ ∀ (k : Nat) (x y z u v : ℝ), a[k]? = some x → b[k]? = some y →
      c[k]? = some z → d[k]? = some u → e[k]? = some v → (zip5 f a b c d e)[k]? = some (f x y z u v) := by
  intro n
  induction n with
  | zero =>
    intro a b c d e h1 h2 h3 h4 h5
    cases List.length_eq_zero_iff.1 h1
    exact ⟨rfl, by intro k x y z u v h; simp at h⟩
  | succ n ih =>
    intro a b c d e h1 h2 h3 h4 h5
    cases a with
    | nil => simp at h1
    | cons a as => cases b with
      | nil => simp at h2
      | cons b bs => cases c with
        | nil => simp at h3
        | cons c cs => cases d with
          | nil => simp at h4
          | cons d ds => cases e with
            | nil => simp at h5
            | cons e es =>
              simp only [List.length_cons, Nat.add_right_cancel_iff] at h1 h2 h3 h4 h5
              obtain ⟨hl, hk⟩ := ih h1 h2 h3 h4 h5
              refine ⟨by simp [zip5, hl], ?_⟩
              intro k x y z u v g1 g2 g3 g4 g5
              cases k with
              | zero =>
                simp only [List.getElem?_cons_zero, Option.some.injEq] at g1 g2 g3 g4 g5
                subst g1; subst g2; subst g3; subst g4; subst g5
                rfl
              | succ k =>
                simp only [List.getElem?_cons_succ] at g1 g2 g3 g4 g5
                simp only [zip5, List.getElem?_cons_succ]
                exact hk k x y z u v g1 g2 g3 g4 g5

theorem rowErrors_spec {flux : List ℝ} {args : List NoiseArgs} {out : List (Option ℝ)} (h : rowErrors flux args = .ok out) :
    flux.length = args.length ∧ out.length = args.length ∧ ∀ (k : Nat) (x : ℝ) (a : NoiseArgs), flux[k]? = some x → args[k]? = some a →
      out[k]? = some (poissonStd x a) := by
  unfold rowErrors at h
  split at h
  · rename_i hl
    cases h
    refine ⟨hl, by simp [hl], ?_⟩
    intro k x a hx ha
    rw [List.getElem?_zipWith, hx, ha]
  · cases h

/-- C69, LSST. If the errors of some observations can be computed, there is one per requested row, and the error of
the `k`-th flux is the noise model at the values of the `k`-th requested row: its exposure time and exposure count,
its seeing in pixels, its sky brightness per pixel in electrons, its zero point, and the camera's noise. -/
theorem C69_opsim {t : ObsTable} {flux : List ℝ} {index : List Nat} {out : List (Option ℝ)}
    (h : opsimError t flux index = .ok out) :
    flux.length = index.length ∧ out.length = index.length ∧
    ∃ scale ro dark, t.survey.get? "pixel_scale".toList = some (.num scale) ∧ t.survey.get? "read_noise".toList = some (.num ro) ∧
      t.survey.get? "dark_current".toList = some (.num dark) ∧
      ∀ (k i : Nat) (x : ℝ), index[k]? = some i → flux[k]? = some x →
        ∃ exptime nexp seeing sky zp, rowNum t "exptime".toList i = some exptime ∧ rowNum t "nexposure".toList i = some nexp ∧
          rowNum t "seeing".toList i = some seeing ∧ rowNum t "skybrightness".toList i = some sky ∧ rowNum t "zp".toList i = some zp ∧
          out[k]? = some (poissonStd x
            { exptime := exptime, count := nexp, psf := π / (2 * log 2) * (seeing / scale) ^ 2,
              sky := mag2flux sky * scale ^ 2 / zp, zp := zp, readout := .num ro, dark := dark }) := by
  unfold opsimError at h
  cases h1 : surveyNum t "pixel_scale".toList with
  | error e => rw [h1] at h; cases h
  | ok scale =>
    rw [h1] at h; dsimp only at h
    cases h2 : pickRows t "seeing".toList index with
    | error e => rw [h2] at h; cases h
    | ok seeing =>
      rw [h2] at h; dsimp only at h
      cases h3 : pickRows t "zp".toList index with
      | error e => rw [h3] at h; cases h
      | ok zp =>
        rw [h3] at h; dsimp only at h
        cases h4 : pickRows t "skybrightness".toList index with
        | error e => rw [h4] at h; cases h
        | ok sky =>
          rw [h4] at h; dsimp only at h
          cases h5 : pickRows t "exptime".toList index with
          | error e => rw [h5] at h; cases h
          | ok exptime =>
            rw [h5] at h; dsimp only at h
            cases h6 : pickRows t "nexposure".toList index with
            | error e => rw [h6] at h; cases h
            | ok nexp =>
              rw [h6] at h; dsimp only at h
              cases h7 : surveyNum t "read_noise".toList with
              | error e => rw [h7] at h; cases h
              | ok ro =>
                rw [h7] at h; dsimp only at h
                cases h8 : surveyNum t "dark_current".toList with
                | error e => rw [h8] at h; cases h
                | ok dark =>
                  rw [h8] at h; dsimp only at h
                  obtain ⟨hl, hlo, hr⟩ := rowErrors_spec h
                  have p2 := pick_ok h2
                  have p3 := pick_ok h3
                  have p4 := pick_ok h4
                  have p5 := pick_ok h5
                  have p6 := pick_ok h6
                  obtain ⟨zl, zk⟩ := zip5_spec (f := opsimArgs scale ro dark) p5.length p6.length p2.length p4.length p3.length
                  refine ⟨hl.trans zl, hlo.trans zl, scale, ro, dark, survey_ok h1, survey_ok h7, survey_ok h8, ?_⟩
                  intro k i x hk hx
                  obtain ⟨a, ha, ha'⟩ := p5.row k i hk
                  obtain ⟨b, hb, hb'⟩ := p6.row k i hk
                  obtain ⟨c, hc, hc'⟩ := p2.row k i hk
                  obtain ⟨d, hd, hd'⟩ := p4.row k i hk
                  obtain ⟨e, he, he'⟩ := p3.row k i hk
                  exact ⟨a, b, c, d, e, ha', hb', hc', hd', he', hr k x _ hx (zk k a b c d e ha hb hc hd he)⟩

/-- C69, ZTF: as for LSST, with one exposure, the FWHM in pixels and the sky in counts times the gain. -/
theorem C69_ztf {t : ObsTable} {flux : List ℝ} {index : List Nat} {out : List (Option ℝ)}
    (h : ztfError t flux index = .ok out) :
    flux.length = index.length ∧ out.length = index.length ∧
    ∃ gain ro dark, t.survey.get? "gain".toList = some (.num gain) ∧ t.survey.get? "read_noise".toList = some (.num ro) ∧
      t.survey.get? "dark_current".toList = some (.num dark) ∧
      ∀ (k i : Nat) (x : ℝ), index[k]? = some i → flux[k]? = some x →
        ∃ exptime fwhm sky zp, rowNum t "exptime".toList i = some exptime ∧ rowNum t "fwhm".toList i = some fwhm ∧
          rowNum t "sky".toList i = some sky ∧ rowNum t "zp".toList i = some zp ∧
          out[k]? = some (poissonStd x
            { exptime := exptime, count := 1, psf := π / (2 * log 2) * fwhm ^ 2,
              sky := sky * gain, zp := zp, readout := .num ro, dark := dark }) := by
  unfold ztfError at h
  cases h1 : pickRows t "fwhm".toList index with
  | error e => rw [h1] at h; cases h
  | ok fwhm =>
    rw [h1] at h; dsimp only at h
    cases h2 : pickRows t "exptime".toList index with
    | error e => rw [h2] at h; cases h
    | ok exptime =>
      rw [h2] at h; dsimp only at h
      cases h3 : pickRows t "sky".toList index with
      | error e => rw [h3] at h; cases h
      | ok sky =>
        rw [h3] at h; dsimp only at h
        cases h4 : surveyNum t "gain".toList with
        | error e => rw [h4] at h; cases h
        | ok gain =>
          rw [h4] at h; dsimp only at h
          cases h5 : pickRows t "zp".toList index with
          | error e => rw [h5] at h; cases h
          | ok zp =>
            rw [h5] at h; dsimp only at h
            cases h7 : surveyNum t "read_noise".toList with
            | error e => rw [h7] at h; cases h
            | ok ro =>
              rw [h7] at h; dsimp only at h
              cases h8 : surveyNum t "dark_current".toList with
              | error e => rw [h8] at h; cases h
              | ok dark =>
                rw [h8] at h; dsimp only at h
                obtain ⟨hl, hlo, hr⟩ := rowErrors_spec h
                have p1 := pick_ok h1
                have p2 := pick_ok h2
                have p3 := pick_ok h3
                have p5 := pick_ok h5
                obtain ⟨zl, zk⟩ := zip5_spec (f := fun a b c d _ => ztfArgs gain ro dark a b c d)
                  p2.length p1.length p3.length p5.length p5.length
                refine ⟨hl.trans zl, hlo.trans zl, gain, ro, dark, survey_ok h4, survey_ok h7, survey_ok h8, ?_⟩
                intro k i x hk hx
                obtain ⟨a, ha, ha'⟩ := p2.row k i hk
                obtain ⟨b, hb, hb'⟩ := p1.row k i hk
                obtain ⟨c, hc, hc'⟩ := p3.row k i hk
                obtain ⟨d, hd, hd'⟩ := p5.row k i hk
                exact ⟨a, b, c, d, ha', hb', hc', hd', hr k x _ hx (zk k a b c d d ha hb hc hd hd)⟩

theorem roman_ramp : romanReadnoise = rampNoise := by
  funext x
  unfold romanReadnoise rampNoise
  rw [div_div, mul_div_assoc]

/-- C69, Roman: as for LSST, with one exposure, the effective number of pixels, the zodiacal and thermal counts of
the exposure, the zero point divided by the exposure time and the readout noise as a function of it. -/
theorem C69_roman {t : ObsTable} {flux : List ℝ} {index : List Nat} {out : List (Option ℝ)}
    (h : romanError t flux index = .ok out) :
    flux.length = index.length ∧ out.length = index.length ∧
    ∃ level dark, t.survey.get? "zodi_level".toList = some (.num level) ∧
      t.survey.get? "dark_current".toList = some (.num dark) ∧
      ∀ (k i : Nat) (x : ℝ), index[k]? = some i → flux[k]? = some x →
        ∃ exptime npix zodi thermal zp, rowNum t "exptime".toList i = some exptime ∧ rowNum t "N_Eff_Pix".toList i = some npix ∧
          rowNum t "zodi_countrate_min".toList i = some zodi ∧ rowNum t "thermal_countrate".toList i = some thermal ∧
          rowNum t "zp".toList i = some zp ∧
          out[k]? = some (poissonStd x
            { exptime := exptime, count := 1, psf := npix,
              sky := exptime * (level * zodi + thermal), zp := zp / exptime, readout := .func rampNoise, dark := dark }) := by
  rw [← roman_ramp]
  unfold romanError at h
  cases h1 : pickRows t "exptime".toList index with
  | error e => rw [h1] at h; cases h
  | ok exptime =>
    rw [h1] at h; dsimp only at h
    cases h2 : surveyNum t "zodi_level".toList with
    | error e => rw [h2] at h; cases h
    | ok level =>
      rw [h2] at h; dsimp only at h
      cases h3 : pickRows t "zodi_countrate_min".toList index with
      | error e => rw [h3] at h; cases h
      | ok zodi =>
        rw [h3] at h; dsimp only at h
        cases h4 : pickRows t "thermal_countrate".toList index with
        | error e => rw [h4] at h; cases h
        | ok thermal =>
          rw [h4] at h; dsimp only at h
          cases h5 : pickRows t "N_Eff_Pix".toList index with
          | error e => rw [h5] at h; cases h
          | ok npix =>
            rw [h5] at h; dsimp only at h
            cases h7 : pickRows t "zp".toList index with
            | error e => rw [h7] at h; cases h
            | ok zp =>
              rw [h7] at h; dsimp only at h
              cases h8 : surveyNum t "dark_current".toList with
              | error e => rw [h8] at h; cases h
              | ok dark =>
                rw [h8] at h; dsimp only at h
                obtain ⟨hl, hlo, hr⟩ := rowErrors_spec h
                have p1 := pick_ok h1
                have p3 := pick_ok h3
                have p4 := pick_ok h4
                have p5 := pick_ok h5
                have p7 := pick_ok h7
                obtain ⟨zl, zk⟩ := zip5_spec (f := romanArgs level dark) p1.length p5.length p3.length p4.length p7.length
                refine ⟨hl.trans zl, hlo.trans zl, level, dark, survey_ok h2, survey_ok h8, ?_⟩
                intro k i x hk hx
                obtain ⟨a, ha, ha'⟩ := p1.row k i hk
                obtain ⟨b, hb, hb'⟩ := p5.row k i hk
                obtain ⟨c, hc, hc'⟩ := p3.row k i hk
                obtain ⟨d, hd, hd'⟩ := p4.row k i hk
                obtain ⟨e, he, he'⟩ := p7.row k i hk
                exact ⟨a, b, c, d, e, ha', hb', hc', hd', he', hr k x _ hx (zk k a b c d e ha hb hc hd he)⟩

/-- C69, the fake survey without a constant error: as for LSST, all values being columns of the table. -/
theorem C69_fake {f : FakeTable} (hc : f.constErr = none) {flux : List ℝ} {index : List Nat} {out : List (Option ℝ)}
    (h : fakeError f flux index = .ok out) :
    flux.length = index.length ∧ out.length = index.length ∧
    ∃ ro dark, f.table.survey.get? "read_noise".toList = some (.num ro) ∧
      f.table.survey.get? "dark_current".toList = some (.num dark) ∧
      ∀ (k i : Nat) (x : ℝ), index[k]? = some i → flux[k]? = some x →
        ∃ exptime nexp psf sky zp, rowNum f.table "exptime".toList i = some exptime ∧ rowNum f.table "nexposure".toList i = some nexp ∧
          rowNum f.table "psf_footprint".toList i = some psf ∧ rowNum f.table "sky".toList i = some sky ∧
          rowNum f.table "zp".toList i = some zp ∧
          out[k]? = some (poissonStd x
            { exptime := exptime, count := nexp, psf := psf, sky := sky, zp := zp, readout := .num ro, dark := dark }) := by
  unfold fakeError at h
  rw [hc] at h
  dsimp only at h
  cases h1 : pickRows f.table "psf_footprint".toList index with
  | error e => rw [h1] at h; cases h
  | ok psf =>
    rw [h1] at h; dsimp only at h
    cases h2 : pickRows f.table "exptime".toList index with
    | error e => rw [h2] at h; cases h
    | ok exptime =>
      rw [h2] at h; dsimp only at h
      cases h3 : pickRows f.table "nexposure".toList index with
      | error e => rw [h3] at h; cases h
      | ok nexp =>
        rw [h3] at h; dsimp only at h
        cases h4 : pickRows f.table "sky".toList index with
        | error e => rw [h4] at h; cases h
        | ok sky =>
          rw [h4] at h; dsimp only at h
          cases h5 : pickRows f.table "zp".toList index with
          | error e => rw [h5] at h; cases h
          | ok zp =>
            rw [h5] at h; dsimp only at h
            cases h7 : surveyNum f.table "read_noise".toList with
            | error e => rw [h7] at h; cases h
            | ok ro =>
              rw [h7] at h; dsimp only at h
              cases h8 : surveyNum f.table "dark_current".toList with
              | error e => rw [h8] at h; cases h
              | ok dark =>
                rw [h8] at h; dsimp only at h
                obtain ⟨hl, hlo, hr⟩ := rowErrors_spec h
                have p1 := pick_ok h1
                have p2 := pick_ok h2
                have p3 := pick_ok h3
                have p4 := pick_ok h4
                have p5 := pick_ok h5
                obtain ⟨zl, zk⟩ := zip5_spec (f := fun a b c d e =>
                    { exptime := a, count := b, psf := c, sky := d, zp := e, readout := .num ro, dark := dark })
                  p2.length p3.length p1.length p4.length p5.length
                refine ⟨hl.trans zl, hlo.trans zl, ro, dark, survey_ok h7, survey_ok h8, ?_⟩
                intro k i x hk hx
                obtain ⟨a, ha, ha'⟩ := p2.row k i hk
                obtain ⟨b, hb, hb'⟩ := p3.row k i hk
                obtain ⟨c, hc, hc'⟩ := p1.row k i hk
                obtain ⟨d, hd, hd'⟩ := p4.row k i hk
                obtain ⟨e, he, he'⟩ := p5.row k i hk
                exact ⟨a, b, c, d, e, ha', hb', hc', hd', he', hr k x _ hx (zk k a b c d e ha hb hc hd he)⟩

theorem mapM_str {cells : List Cell} {fs : List Name} (h : cells.mapM Cell.str? = .ok fs) : cells = fs.map Cell.str := by
  induction cells generalizing fs with
  | nil => cases h; rfl
  | cons c cs ih =>
    rw [List.mapM_cons] at h
    cases c with
    | num x => cases h
    | str s =>
      cases hr : cs.mapM Cell.str? with
      | error e => rw [hr] at h; cases h
      | ok l =>
        rw [hr] at h
        have : fs = s :: l := by cases h; rfl
        subst this
        simp [ih hr]

theorem mapM_dict {ν : Type} {d : Dict Name ν} {fs : List Name} {l : List ν} (h : fs.mapM (fun f => d.get? f) = some l) :
    fs.map (fun f => d.get? f) = l.map some := by
  induction fs generalizing l with
  | nil => cases h; rfl
  | cons f fs ih =>
    rw [List.mapM_cons] at h
    cases hi : d.get? f with
    | none => rw [hi] at h; cases h
    | some x =>
      rw [hi] at h
      cases hr : fs.mapM (fun f => d.get? f) with
      | none => rw [hr] at h; cases h
      | some l' =>
        rw [hr] at h
        have : l = x :: l' := by cases h; rfl
        subst this
        simp [ih hr, hi]

/-- C69, the fake survey with a constant error: the error of the `k`-th flux is the constant of the filter of the
`k`-th requested row. -/
theorem C69_constant {f : FakeTable} {d : Dict Name ℝ} (hc : f.constErr = some d) {flux : List ℝ} {index : List Nat}
    {out : List (Option ℝ)} (h : fakeError f flux index = .ok out) :
    out.length = index.length ∧ ∀ (k i : Nat), index[k]? = some i →
      ∃ band x, rowStr f.table "filter".toList i = some band ∧ d.get? band = some x ∧ out[k]? = some (some x) := by
  unfold fakeError at h
  rw [hc] at h
  dsimp only [constErrors] at h
  cases h1 : f.table.cols.get? "filter".toList with
  | none => rw [h1] at h; cases h
  | some c =>
    rw [h1] at h; dsimp only at h
    cases h2 : index.mapM (fun i => c[i]?) with
    | none => rw [h2] at h; cases h
    | some cells =>
      rw [h2] at h; dsimp only at h
      cases h3 : cells.mapM Cell.str? with
      | error e => rw [h3] at h; cases h
      | ok fs =>
        rw [h3] at h; dsimp only at h
        cases h4 : fs.mapM (fun f => d.get? f) with
        | none => rw [h4] at h; cases h
        | some l =>
          rw [h4] at h
          cases h
          have e2 := mapM_get h2
          have e3 := mapM_str h3
          have e4 := mapM_dict h4
          subst e3
          have hl : l.length = index.length := by
            have a := congrArg List.length e2
            have b := congrArg List.length e4
            simp only [List.length_map] at a b
            omega
          refine ⟨by simp [hl], ?_⟩
          intro k i hk
          have f2 := congrArg (fun q => q[k]?) e2
          have f4 := congrArg (fun q => q[k]?) e4
          simp only [List.getElem?_map, hk, Option.map_some] at f2 f4
          cases hf : fs[k]? with
          | none => rw [hf] at f2; cases f2
          | some b =>
            rw [hf] at f2 f4
            simp only [Option.map_some, Option.some.injEq] at f2 f4
            cases hx : l[k]? with
            | none => rw [hx] at f4; cases f4
            | some x =>
              rw [hx] at f4
              simp only [Option.map_some, Option.some.injEq] at f4
              refine ⟨b, x, ?_, f4, by simp [hx]⟩
              unfold rowStr
              rw [h1]
              simp [f2]

/-! ### When the errors can be computed -/

/-- A column of numbers that covers the requested rows. -/
def NumCovers (t : ObsTable) (index : List Nat) (name : Name) : Prop :=
  ∃ c : List ℝ, t.cols.get? name = some (c.map Cell.num) ∧ ∀ i ∈ index, i < c.length

theorem pick_of_covers {t : ObsTable} {name : Name} {index : List Nat} (h : NumCovers t index name) :
    ∃ l, pickRows t name index = .ok l ∧ l.length = index.length := by
  obtain ⟨c, hc, hi⟩ := h
  obtain ⟨l, hl⟩ := pick_succeeds (numCol_ok.2 hc) hi
  exact ⟨l, hl, (pick_ok hl).length⟩

theorem survey_some {t : ObsTable} {key : Name} {x : ℝ} (h : t.survey.get? key = some (.num x)) : surveyNum t key = .ok x := by
  unfold surveyNum; rw [h]

theorem rowErrors_ok {flux : List ℝ} {args : List NoiseArgs} (h : flux.length = args.length) : ∃ out, rowErrors flux args = .ok out := by
  unfold rowErrors; rw [if_pos h]; exact ⟨_, rfl⟩

/-- C69: for LSST, the errors of any valid rows are computed, if the columns and the camera values are numbers. -/
theorem C69_opsim_succeeds {t : ObsTable} {flux : List ℝ} {index : List Nat} (hl : flux.length = index.length)
    (hcols : ∀ name ∈ ["seeing".toList, "zp".toList, "skybrightness".toList, "exptime".toList, "nexposure".toList],
      NumCovers t index name)
    (hs : ∀ key ∈ ["pixel_scale".toList, "read_noise".toList, "dark_current".toList], ∃ x, t.survey.get? key = some (.num x)) :
    ∃ out, opsimError t flux index = .ok out := by
  obtain ⟨scale, h1⟩ := hs _ (List.mem_cons_self ..)
  obtain ⟨ro, h2⟩ := hs _ (List.mem_cons_of_mem _ (List.mem_cons_self ..))
  obtain ⟨dark, h3⟩ := hs _ (List.mem_cons_of_mem _ (List.mem_cons_of_mem _ (List.mem_cons_self ..)))
  obtain ⟨a, ha, la⟩ := pick_of_covers (hcols _ (List.mem_cons_self ..))
  obtain ⟨b, hb, lb⟩ := pick_of_covers (hcols _ (List.mem_cons_of_mem _ (List.mem_cons_self ..)))
  obtain ⟨c, hc, lc⟩ := pick_of_covers (hcols _ (List.mem_cons_of_mem _ (List.mem_cons_of_mem _ (List.mem_cons_self ..))))
  obtain ⟨d, hd, ld⟩ := pick_of_covers (hcols _ (List.mem_cons_of_mem _ (List.mem_cons_of_mem _ (List.mem_cons_of_mem _ (List.mem_cons_self ..)))))
  obtain ⟨e, he, le⟩ := pick_of_covers (hcols _ (List.mem_cons_of_mem _ (List.mem_cons_of_mem _ (List.mem_cons_of_mem _ (List.mem_cons_of_mem _ (List.mem_cons_self ..))))))
  unfold opsimError
  rw [survey_some h1, ha, hb, hc, hd, he, survey_some h2, survey_some h3]
  dsimp only
  exact rowErrors_ok (hl.trans (zip5_spec ld le la lc lb).1.symm)

/-- C69: the same for the fake survey. -/
theorem C69_fake_succeeds {f : FakeTable} (hn : f.constErr = none) {flux : List ℝ} {index : List Nat} (hl : flux.length = index.length)
    (hcols : ∀ name ∈ ["psf_footprint".toList, "exptime".toList, "nexposure".toList, "sky".toList, "zp".toList],
      NumCovers f.table index name)
    (hs : ∀ key ∈ ["read_noise".toList, "dark_current".toList], ∃ x, f.table.survey.get? key = some (.num x)) :
    ∃ out, fakeError f flux index = .ok out := by
  obtain ⟨ro, h2⟩ := hs _ (List.mem_cons_self ..)
  obtain ⟨dark, h3⟩ := hs _ (List.mem_cons_of_mem _ (List.mem_cons_self ..))
  obtain ⟨a, ha, la⟩ := pick_of_covers (hcols _ (List.mem_cons_self ..))
  obtain ⟨b, hb, lb⟩ := pick_of_covers (hcols _ (List.mem_cons_of_mem _ (List.mem_cons_self ..)))
  obtain ⟨c, hc, lc⟩ := pick_of_covers (hcols _ (List.mem_cons_of_mem _ (List.mem_cons_of_mem _ (List.mem_cons_self ..))))
  obtain ⟨d, hd, ld⟩ := pick_of_covers (hcols _ (List.mem_cons_of_mem _ (List.mem_cons_of_mem _ (List.mem_cons_of_mem _ (List.mem_cons_self ..)))))
  obtain ⟨e, he, le⟩ := pick_of_covers (hcols _ (List.mem_cons_of_mem _ (List.mem_cons_of_mem _ (List.mem_cons_of_mem _ (List.mem_cons_of_mem _ (List.mem_cons_self ..))))))
  unfold fakeError
  rw [hn]
  dsimp only
  rw [ha, hb, hc, hd, he, survey_some h2, survey_some h3]
  dsimp only
  exact rowErrors_ok (hl.trans (zip5_spec lb lc la ld le).1.symm)

/-- C69: a row number beyond the table raises, it gives no error. -/
theorem C69_bad_row {t : ObsTable} {flux : List ℝ} {index : List Nat} {i : Nat} (hi : i ∈ index) (hwf : WF t) (hr : t.len ≤ i) :
    ¬ ∃ out, opsimError t flux index = .ok out := by
  rintro ⟨out, h⟩
  obtain ⟨hl, _, _, _, _, _, _, _, hrow⟩ := C69_opsim h
  obtain ⟨k, hk, hk'⟩ := List.mem_iff_getElem.1 hi
  have hx : flux[k]? = some (flux[k]'(by omega)) := List.getElem?_eq_getElem _
  obtain ⟨a, _, _, _, _, ha, _⟩ := hrow k i _ (List.getElem?_eq_some_iff.2 ⟨hk, hk'⟩) hx
  unfold rowNum at ha
  cases hc : t.cols.get? "exptime".toList with
  | none => rw [hc] at ha; cases ha
  | some c =>
    rw [hc] at ha
    have := hwf.1 _ (Dict.mem_of_get? hc)
    simp only at this
    have hn : c[i]? = none := List.getElem?_eq_none (by omega)
    simp [hn] at ha

example : ∃ out, fakeError ⟨⟨[("filter".toList, [.str "g".toList, .str "r".toList])], [0, 1], [], [], [], [], none⟩,
    some [("g".toList, 1), ("r".toList, 2)]⟩ [5, 5, 5] [1, 0, 1] = .ok out ∧ out = [some 2, some 1, some 2] := ⟨_, rfl, rfl⟩

end LCL.SurveyErrorProps
