import Verif.Props.SurveyErrors

/-!
# Property C70 (a table built from constants is complete)
-/

namespace LCL.FakeObsProps
open LCL LCL.PhotSpec LCL.ObsSpec LCL.ObsLemmas LCL.ObsTable LCL.ObsTableProps LCL.SurveyErrorProps Real

theorem fillZp_spec (rows : List Name) : ∀ (d : List (Name × ℝ)) (out res : List ℝ), out.length = rows.length →
    fillZp rows d out = .ok res →
    res.length = rows.length ∧ (∀ q ∈ d, 0 < q.2) ∧
    ∀ (i : Nat) (f : Name), rows[i]? = some f →
      ((∀ q ∈ d, q.1 ≠ f) → res[i]? = out[i]?) ∧
      (∀ x, (f, x) ∈ d → (∀ y, (f, y) ∈ d → y = x) → res[i]? = some x) := by
  intro d
  induction d with
  | nil => intro out res hl h; cases h; exact ⟨hl, by simp, fun i f _ => ⟨fun _ => rfl, by simp⟩⟩
  | cons q d ih =>
    obtain ⟨key, val⟩ := q
    intro out res hl h
    unfold fillZp at h
    by_cases hv : val ≤ 0
    · rw [if_pos hv] at h; cases h
    · rw [if_neg hv] at h
      have hl' : (List.zipWith (fun r y => if r = key then val else y) rows out).length = rows.length := by simp [hl]
      obtain ⟨a, b, c⟩ := ih _ res hl' h
      refine ⟨a, ?_, ?_⟩
      · intro q hq
        rcases List.mem_cons.1 hq with rfl | hq
        · exact not_le.1 hv
        · exact b q hq
      · intro i f hf
        obtain ⟨c1, c2⟩ := c i f hf
        obtain ⟨hi, _⟩ := List.getElem?_eq_some_iff.1 hf
        have ho : out[i]? = some (out[i]'(by omega)) := List.getElem?_eq_getElem _
        have hz : (List.zipWith (fun r y => if r = key then val else y) rows out)[i]? =
            some (if f = key then val else out[i]'(by omega)) := by
          rw [List.getElem?_zipWith, hf, ho]
        constructor
        · intro hne
          rw [c1 (fun q hq => hne q (List.mem_cons_of_mem _ hq)), hz, ho, if_neg (fun e => hne (key, val) (by simp) e.symm)]
        · intro x hx hu
          by_cases hin : ∃ y, (f, y) ∈ d
          · obtain ⟨y, hy⟩ := hin
            have := hu y (List.mem_cons_of_mem _ hy)
            subst this
            exact c2 y hy (fun z hz => hu z (List.mem_cons_of_mem _ hz))
          · have hkey : (f, x) = (key, val) := by
              rcases List.mem_cons.1 hx with h | h
              · exact h
              · exact absurd ⟨x, h⟩ hin
            injection hkey with h1 h2
            subst h1; subst h2
            rw [c1 (fun q hq e => hin ⟨q.2, by rw [← e]; exact hq⟩), hz, if_pos rfl]

theorem str_inv {rows : List Name} : (rows.map Cell.str).mapM Cell.str? = .ok rows := by
  induction rows with
  | nil => rfl
  | cons x rows ih => simp only [List.map_cons, List.mapM_cons, ih]; rfl

/-- C70. Zero points given per band: every row gets the (positive) zero point of its own filter, and no other column
changes. -/
theorem C70_zero_points {t t' : ObsTable} {d : Dict Name ℝ} (hd : d.keys.Nodup) (hz : t.cols.has "zp".toList = false)
    (hwf : WF t) {rows : List Name} (hf : t.cols.get? "filter".toList = some (rows.map Cell.str))
    (hcover : ∀ f ∈ rows, f ∈ t.filters) (h : fakeAssignZp (some d) t = .ok t') :
    (∀ (i : Nat) (f : Name), rows[i]? = some f → ∃ x, d.get? f = some x ∧ 0 < x ∧ rowNum t' "zp".toList i = some x) ∧
    ∀ other, other ≠ "zp".toList → t'.cols.get? other = t.cols.get? other := by
  have hlen : rows.length = t.len := by
    have := hwf.1 _ (Dict.mem_of_get? hf); simpa using this
  unfold fakeAssignZp at h
  rw [hz, hf] at h
  simp only [Bool.false_eq_true, if_false, str_inv] at h
  split at h
  · rename_i hall
    cases hfill : fillZp rows d (List.replicate t.len 0) with
    | error e => rw [hfill] at h; cases h
    | ok out =>
      rw [hfill] at h
      dsimp only at h
      obtain ⟨a, b, c⟩ := fillZp_spec rows d _ out (by simp [hlen]) hfill
      obtain ⟨_, l, hll, rfl, hl'⟩ := addColumn_ok h
      simp only at hl'
      subst hl'
      refine ⟨?_, fun other ho => Dict.get?_set_ne _ _ (Ne.symm ho)⟩
      intro i f hi
      have hin : f ∈ t.filters := hcover f (List.mem_of_getElem? hi)
      have hh := List.all_eq_true.1 hall f hin
      unfold Dict.has at hh
      cases hg : d.get? f with
      | none => rw [hg] at hh; cases hh
      | some x =>
        have hm := Dict.mem_of_get? hg
        refine ⟨x, rfl, b _ hm, ?_⟩
        have := (c i f hi).2 x hm (fun y hy => by
          have := Dict.get?_of_mem hd hy; rw [hg] at this; injection this with e; exact e.symm)
        unfold rowNum
        rw [Dict.get?_set_self]
        simp [this]
  · cases h

/-- C70: a table with neither zero points nor a way to derive them is rejected: no dictionary, no filter column, a
filter without an entry, or an entry that is not positive. -/
theorem C70_rejects {t : ObsTable} (hz : t.cols.has "zp".toList = false) :
    fakeAssignZp none t = .error .valueError ∧
    (∀ d, t.cols.get? "filter".toList = none → fakeAssignZp (some d) t = .error .valueError) ∧
    (∀ d (rows : List Name), t.cols.get? "filter".toList = some (rows.map Cell.str) → (∃ f ∈ t.filters, d.get? f = none) →
      fakeAssignZp (some d) t = .error .valueError) ∧
    (∀ d (rows : List Name), t.cols.get? "filter".toList = some (rows.map Cell.str) → (∃ q ∈ d, q.2 ≤ 0) →
      fakeAssignZp (some d) t = .error .valueError) := by
  refine ⟨?_, ?_, ?_, ?_⟩
  · unfold fakeAssignZp; rw [hz]; rfl
  · intro d h; unfold fakeAssignZp; rw [hz, h]; rfl
  · intro d rows h ⟨f, hf, hg⟩
    unfold fakeAssignZp
    rw [hz, h]
    simp only [Bool.false_eq_true, if_false, str_inv]
    rw [if_neg]
    intro hall
    have := List.all_eq_true.1 hall f hf
    unfold Dict.has at this
    rw [hg] at this
    cases this
  · intro d rows h ⟨q, hq, hneg⟩
    unfold fakeAssignZp
    rw [hz, h]
    simp only [Bool.false_eq_true, if_false, str_inv]
    split
    · have : ∀ (d : List (Name × ℝ)) out, q ∈ d → fillZp rows d out = .error .valueError := by
        intro d
        induction d with
        | nil => intro out h; simp at h
        | cons p d ih =>
          intro out h
          obtain ⟨key, val⟩ := p
          unfold fillZp
          by_cases hv : val ≤ 0
          · rw [if_pos hv]
          · rw [if_neg hv]
            rcases List.mem_cons.1 h with rfl | h
            · exact absurd hneg hv
            · exact ih _ h
      rw [this d _ hq]
    · rfl

theorem require_ok {t t' : ObsTable} {name : Name} {cp : Bool} (h : requireColumn name cp t = .ok t') :
    t.assignConstant name cp = .ok (t', true) := by
  unfold requireColumn at h
  cases ha : t.assignConstant name cp with
  | error e => rw [ha] at h; cases h
  | ok p =>
    obtain ⟨u, b⟩ := p
    rw [ha] at h
    cases b with
    | true => cases h; rfl
    | false => cases h

theorem add_keeps {t t' : ObsTable} {name : Name} {v : ColArg} (h : t.addColumn name v = .ok t') :
    (∀ other c, t.cols.get? other = some c → t'.cols.get? other = some c) ∧ t'.survey = t.survey ∧
    t'.cols.has name = true := by
  obtain ⟨ho, l, hl, rfl, _⟩ := addColumn_ok h
  have hn : t.cols.has name = false := by
    unfold addColumn at h
    by_cases hh : t.cols.has name = true
    · rw [if_pos ⟨hh, rfl⟩] at h; cases h
    · simpa using hh
  refine ⟨?_, rfl, ?_⟩
  · intro other c hc
    have hne : name ≠ other := by
      rintro rfl
      unfold Dict.has at hn
      rw [hc] at hn
      cases hn
    exact (Dict.get?_set_ne _ _ hne).trans hc
  · unfold Dict.has
    simp only [Dict.get?_set_self]
    rfl

/-- What `_assign_constant_if_needed` leaves: no column is lost or changed, and the named one exists when it
reports success. -/
theorem constant_keeps {t t' : ObsTable} {name : Name} {cp b : Bool} (h : t.assignConstant name cp = .ok (t', b)) :
    (∀ other c, t.cols.get? other = some c → t'.cols.get? other = some c) ∧ t'.survey = t.survey ∧
    (b = true → t'.cols.has name = true) := by
  unfold assignConstant at h
  by_cases hn : t.cols.has name = true
  · rw [if_pos hn] at h; cases h; exact ⟨fun _ _ h => h, rfl, fun _ => hn⟩
  · rw [if_neg hn] at h
    cases hs : t.survey.get? name with
    | none => rw [hs] at h; cases h; exact ⟨fun _ _ h => h, rfl, fun h => by cases h⟩
    | some v =>
      rw [hs] at h
      cases v with
      | none => cases h; exact ⟨fun _ _ h => h, rfl, fun h => by cases h⟩
      | _ =>
        simp only at h
        split at h
        · cases h
        · split at h
          · cases h
          · split at h
            · cases h
            · rename_i hh
              cases h
              obtain ⟨a, b, c⟩ := add_keeps hh
              exact ⟨a, b, fun _ => c⟩

/-- The table keeps its columns. -/
def Keeps (t t' : ObsTable) : Prop :=
  (∀ other c, t.cols.get? other = some c → t'.cols.get? other = some c) ∧ t'.survey = t.survey

theorem Keeps.trans {t u v : ObsTable} (h : Keeps t u) (h' : Keeps u v) : Keeps t v :=
  ⟨fun o c hc => h'.1 o c (h.1 o c hc), h'.2.trans h.2⟩

theorem Keeps.has {t u : ObsTable} (h : Keeps t u) {name : Name} (hn : t.cols.has name = true) : u.cols.has name = true := by
  unfold Dict.has at hn ⊢
  cases hc : t.cols.get? name with
  | none => rw [hc] at hn; cases hn
  | some c => rw [h.1 name c hc]; rfl

theorem require_keeps {t t' : ObsTable} {name : Name} {cp : Bool} (h : requireColumn name cp t = .ok t') :
    Keeps t t' ∧ t'.cols.has name = true := by
  obtain ⟨a, b, c⟩ := constant_keeps (require_ok h)
  exact ⟨⟨a, b⟩, c rfl⟩

theorem psf_keeps {t t' : ObsTable} (h : requirePsf t = .ok t') : Keeps t t' ∧ t'.cols.has "psf_footprint".toList = true := by
  unfold requirePsf at h
  cases h1 : t.assignConstant "psf_footprint".toList true with
  | error e => rw [h1] at h; cases h
  | ok p =>
    obtain ⟨u, b⟩ := p
    rw [h1] at h
    obtain ⟨ka, kb, kc⟩ := constant_keeps h1
    cases b with
    | true => dsimp only at h; injection h with h; subst h; exact ⟨⟨ka, kb⟩, kc rfl⟩
    | false =>
      dsimp only at h
      cases h2 : requireColumn "fwhm_px".toList true u with
      | error e => rw [h2] at h; cases h
      | ok v =>
        rw [h2] at h
        dsimp only at h
        cases h3 : numCol v.cols "fwhm_px".toList with
        | error e => rw [h3] at h; cases h
        | ok l =>
          rw [h3] at h
          dsimp only at h
          obtain ⟨a, b, c⟩ := add_keeps h
          exact ⟨Keeps.trans ⟨ka, kb⟩ (Keeps.trans (require_keeps h2).1 ⟨a, b⟩), c⟩

/-- C70: construction without a constant flux error succeeds only with everything the noise model needs: the
columns the user gave are unchanged and the exposure time, the exposure count, the PSF footprint and the sky are
columns. -/
theorem C70_complete {t t' : ObsTable} (h : requireAll t = .ok t') :
    Keeps t t' ∧ ∀ name ∈ ["exptime".toList, "nexposure".toList, "psf_footprint".toList, "sky".toList], t'.cols.has name = true := by
  unfold requireAll at h
  cases h1 : requireColumn "exptime".toList true t with
  | error e => rw [h1] at h; cases h
  | ok t1 =>
    rw [h1] at h; dsimp only at h
    cases h2 : requireColumn "nexposure".toList true t1 with
    | error e => rw [h2] at h; cases h
    | ok t2 =>
      rw [h2] at h; dsimp only at h
      cases h3 : requirePsf t2 with
      | error e => rw [h3] at h; cases h
      | ok t3 =>
        rw [h3] at h; dsimp only at h
        obtain ⟨k1, c1⟩ := require_keeps h1
        obtain ⟨k2, c2⟩ := require_keeps h2
        obtain ⟨k3, c3⟩ := psf_keeps h3
        obtain ⟨k4, c4⟩ := require_keeps h
        refine ⟨(k1.trans k2).trans (k3.trans k4), ?_⟩
        intro name hn
        rcases List.mem_cons.1 hn with rfl | hn
        · exact k4.has (k3.has (k2.has c1))
        · rcases List.mem_cons.1 hn with rfl | hn
          · exact k4.has (k3.has c2)
          · rcases List.mem_cons.1 hn with rfl | hn
            · exact k4.has c3
            · rcases List.mem_cons.1 hn with rfl | hn
              · exact c4
              · simp at hn

/-- C70: a PSF footprint that is not given is derived from the FWHM of each row, in pixels. -/
theorem C70_footprint {t t' : ObsTable} {fwhm : List ℝ} (h0 : t.cols.has "psf_footprint".toList = false)
    (hs : t.survey.get? "psf_footprint".toList = none ∨ t.survey.get? "psf_footprint".toList = some .none)
    (hf : t.cols.get? "fwhm_px".toList = some (fwhm.map Cell.num)) (h : requirePsf t = .ok t') :
    ∀ (i : Nat) (x : ℝ), fwhm[i]? = some x → rowNum t' "psf_footprint".toList i = some (π / (2 * log 2) * x ^ 2) := by
  intro i x hx
  have hn : "psf_footprint".toList ∉ t.cols.keys := (Dict.has_eq_false_iff _ _).1 h0
  have hfk : "fwhm_px".toList ∈ t.cols.keys := (Dict.has_iff _ _).1 (by unfold Dict.has; rw [hf]; rfl)
  unfold requirePsf at h
  rw [(C68_present_or_missing t _ true).2 hn hs] at h
  dsimp only at h
  unfold requireColumn at h
  rw [(C68_present_or_missing t _ true).1 hfk] at h
  dsimp only at h
  rw [numCol_ok.2 hf] at h
  dsimp only at h
  obtain ⟨_, l, hll, rfl, hl'⟩ := addColumn_ok h
  simp only at hl'
  subst hl'
  unfold rowNum
  rw [Dict.get?_set_self]
  simp [hx, gaussEffArea]

/-- C70: a constant flux error is checked: every filter of the table has an entry and no entry is negative; a single
number counts for every filter. -/
theorem C70_constant_error {cols labels colmap survey fp zp c f} (h : fakeInit cols labels colmap survey fp zp c = .ok f)
    (hc : c ≠ .none) : ∃ d, f.constErr = some d ∧ (∀ q ∈ d, 0 ≤ q.2) ∧ (∀ b ∈ f.table.filters, ∃ x, d.get? b = some x) ∧
      (∀ x, c = .num x → ∀ b ∈ f.table.filters, d.get? b = some x) ∧ (∀ d', c = .perFilter d' → d = d') := by
  have key : ∀ {fs : List Name} {d d' : Dict Name ℝ}, checkConst fs d = .ok d' → d' = d ∧ (∀ q ∈ d, 0 ≤ q.2) ∧ ∀ b ∈ fs, ∃ x, d.get? b = some x := by
    intro fs d d' h
    unfold checkConst at h
    split at h
    · rename_i hall
      split at h
      · rename_i hpos
        cases h
        refine ⟨rfl, ?_, ?_⟩
        · intro q hq; exact of_decide_eq_true (List.all_eq_true.1 hpos q hq)
        · intro b hb
          have := List.all_eq_true.1 hall b hb
          unfold Dict.has at this
          exact Option.isSome_iff_exists.1 this
      · cases h
    · cases h
  have hsame : ∀ (fs : List Name) (x : ℝ) b, b ∈ fs → Dict.get? (fs.map fun f => (f, x)) b = some x := by
    intro fs x b hb
    induction fs with
    | nil => simp at hb
    | cons g fs ih =>
      simp only [List.map_cons, Dict.get?_cons]
      by_cases hg : g = b
      · rw [if_pos hg]
      · rw [if_neg hg]
        rcases List.mem_cons.1 hb with rfl | hb
        · exact absurd rfl hg
        · exact ih hb
  unfold fakeInit at h
  cases hi : ObsTable.init baseRequired (fakeAssignZp zp) cols labels colmap survey fp with
  | error e => rw [hi] at h; cases h
  | ok t =>
    rw [hi] at h
    dsimp only at h
    cases c with
    | none => exact absurd rfl hc
    | num x =>
      dsimp only at h
      cases hk : checkConst t.filters (t.filters.map fun f => (f, x)) with
      | error e => rw [hk] at h; cases h
      | ok d =>
        rw [hk] at h
        cases h
        obtain ⟨rfl, a, b⟩ := key hk
        refine ⟨_, rfl, a, b, ?_, ?_⟩
        · intro y hy b hb; cases hy; exact hsame _ _ _ hb
        · intro d' hd; cases hd
    | perFilter d0 =>
      dsimp only at h
      cases hk : checkConst t.filters d0 with
      | error e => rw [hk] at h; cases h
      | ok d =>
        rw [hk] at h
        cases h
        obtain ⟨rfl, a, b⟩ := key hk
        refine ⟨_, rfl, a, b, ?_, ?_⟩
        · intro y hy; cases hy
        · intro d' hd; cases hd; rfl

/-! ### Cases that meet the hypotheses -/

/-- A table of two observations without zero points. -/
def bare : ObsTable :=
  { cols := [("filter".toList, [.str "r".toList, .str "g".toList])], labels := [0, 1], invColmap := [], survey := [],
    filters := ["g".toList, "r".toList], tree := [], footprint := none }

example : bare.cols.has "zp".toList = false ∧ WF bare ∧ bare.cols.get? "filter".toList = some (["r".toList, "g".toList].map Cell.str) ∧
    ∃ t', fakeAssignZp (some [("g".toList, 1), ("r".toList, 2)]) bare = .ok t' := by
  refine ⟨rfl, ⟨by simp [bare, ObsTable.len], by decide⟩, rfl, ?_⟩
  unfold fakeAssignZp
  rw [if_neg (by decide)]
  have hf : bare.cols.get? "filter".toList = some (["r".toList, "g".toList].map Cell.str) := rfl
  simp only [hf, str_inv]
  rw [if_pos (by decide)]
  simp only [fillZp]
  rw [if_neg (by norm_num), if_neg (by norm_num)]
  exact ⟨_, rfl⟩

end LCL.FakeObsProps
