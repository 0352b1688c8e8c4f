import Verif.Spec.PostProcess
import Verif.Props.Photometry

/-!
# Properties C44 (augmenting lightcurves) and C72 (dropping empty lightcurves)
-/

namespace LCL.PostProps
open LCL LCL.PostSpec Real

theorem mapM_val {c : List PCell} {l : List (Option ℝ)} (h : c.mapM PCell.val = .ok l) : c = l.map PCell.ofOpt := by
  induction c generalizing l with
  | nil => cases h; rfl
  | cons x c ih =>
    rw [List.mapM_cons] at h
    cases x with
    | flag b => cases h
    | text s => cases h
    | num x =>
      cases hr : c.mapM PCell.val with
      | error e => rw [hr] at h; cases h
      | ok l' =>
        rw [hr] at h
        have : l = some x :: l' := by cases h; rfl
        subst this
        simp [ih hr, PCell.ofOpt]
    | missing =>
      cases hr : c.mapM PCell.val with
      | error e => rw [hr] at h; cases h
      | ok l' =>
        rw [hr] at h
        have : l = none :: l' := by cases h; rfl
        subst this
        simp [ih hr, PCell.ofOpt]

theorem pnums_ok {d : Dict Name (List PCell)} {name : Name} {l : List (Option ℝ)} (h : pnums d name = .ok l) :
    d.get? name = some (l.map PCell.ofOpt) := by
  unfold pnums at h
  cases hd : d.get? name with
  | none => rw [hd] at h; cases h
  | some c => rw [hd] at h; rw [mapM_val h]

theorem entry_num {d : Dict Name (List PCell)} {name : Name} {l : List (Option ℝ)} (h : d.get? name = some (l.map PCell.ofOpt))
    {p : Nat} {x : ℝ} : entry d name p = some (.num x) ↔ l[p]? = some (some x) := by
  unfold entry
  rw [h]
  simp only [Option.bind_some, List.getElem?_map]
  cases l[p]? with
  | none => simp
  | some y => cases y <;> simp [PCell.ofOpt]

theorem ne_name {a b : String} (h : a ≠ b) : a.toList ≠ b.toList := fun e => h (String.toList_inj.1 e)

/-- What the four columns hold. -/
theorem addColumns_get (detect : Option ℝ → PCell) (flux err : List (Option ℝ)) (d : Dict Name (List PCell)) :
    (addColumns detect flux err d).get? "snr".toList = some ((List.zipWith snrOf flux err).map PCell.ofOpt) ∧
    (addColumns detect flux err d).get? "detection".toList = some ((List.zipWith snrOf flux err).map detect) ∧
    (addColumns detect flux err d).get? "mag".toList = some ((List.zipWith magOf flux err).map PCell.ofOpt) ∧
    (addColumns detect flux err d).get? "magerr".toList = some ((List.zipWith magErrOf flux err).map PCell.ofOpt) ∧
    ∀ other, other ∉ added → (addColumns detect flux err d).get? other = d.get? other := by
  unfold addColumns
  refine ⟨?_, ?_, ?_, ?_, ?_⟩
  · rw [Dict.get?_set_ne _ _ (ne_name (by decide)), Dict.get?_set_ne _ _ (ne_name (by decide)),
      Dict.get?_set_ne _ _ (ne_name (by decide)), Dict.get?_set_self]
  · rw [Dict.get?_set_ne _ _ (ne_name (by decide)), Dict.get?_set_ne _ _ (ne_name (by decide)), Dict.get?_set_self]
  · rw [Dict.get?_set_ne _ _ (ne_name (by decide)), Dict.get?_set_self]
  · rw [Dict.get?_set_self]
  · intro other ho
    have h : ∀ n ∈ added, n ≠ other := fun n hn e => ho (e ▸ hn)
    rw [Dict.get?_set_ne _ _ (h _ (by simp [added])), Dict.get?_set_ne _ _ (h _ (by simp [added])),
      Dict.get?_set_ne _ _ (h _ (by simp [added])), Dict.get?_set_ne _ _ (h _ (by simp [added]))]

/-- What one entry of the new columns says about its flux `f` and flux error `e`. -/
def EntryOK (d : Dict Name (List PCell)) (minSnr f e : ℝ) (p : Nat) : Prop :=
  (0 < f ∧ 0 < e → entry d "snr".toList p = some (.num (f / e)) ∧
    (∃ b, entry d "detection".toList p = some (.flag b) ∧ (b = true ↔ minSnr ≤ f / e)) ∧
    entry d "mag".toList p = some (.num (31.4 - 2.5 * logb 10 f)) ∧
    entry d "magerr".toList p = some (.num (2.5 / log 10 * (e / f)))) ∧
  (¬ (0 < f ∧ 0 < e) → entry d "snr".toList p = some .missing ∧ entry d "mag".toList p = some .missing ∧
    entry d "magerr".toList p = some .missing)

theorem entries_ok {detect : Option ℝ → PCell} {minSnr : ℝ} (hdet : ∀ x, detect (some x) = detectCell minSnr (some x))
    {flux err : List (Option ℝ)} {d d' : Dict Name (List PCell)}
    (h : ∀ n ∈ ["snr".toList, "detection".toList, "mag".toList, "magerr".toList],
      d'.get? n = (addColumns detect flux err d).get? n) {p : Nat} {f e : ℝ}
    (hf : flux[p]? = some (some f)) (he : err[p]? = some (some e)) : EntryOK d' minSnr f e p := by
  obtain ⟨h1, h2, h3, h4, _⟩ := addColumns_get detect flux err d
  have g1 := (h _ (by simp)).trans h1
  have g2 := (h _ (by simp)).trans h2
  have g3 := (h _ (by simp)).trans h3
  have g4 := (h _ (by simp)).trans h4
  have z : ∀ (op : Option ℝ → Option ℝ → Option ℝ) (g : Option ℝ → PCell) n,
      d'.get? n = some ((List.zipWith op flux err).map g) → entry d' n p = some (g (op (some f) (some e))) := by
    intro op g n hn
    unfold entry
    rw [hn]
    simp [List.getElem?_zipWith, hf, he]
  constructor
  · intro hp
    have s : snrOf (some f) (some e) = some (f / e) := by simp only [snrOf]; rw [if_pos hp]
    have m : magOf (some f) (some e) = some (31.4 - 2.5 * logb 10 f) := by
      simp only [magOf]; rw [if_pos hp]
      unfold flux2mag magAbZp
      rw [if_pos hp.1]
      norm_num
    have me : magErrOf (some f) (some e) = some (2.5 / log 10 * (e / f)) := by simp only [magErrOf]; rw [if_pos hp]
    refine ⟨?_, ?_, ?_, ?_⟩
    · rw [z _ _ _ g1, s]; rfl
    · refine ⟨_, by rw [z _ _ _ g2, s, hdet]; rfl, by simp⟩
    · rw [z _ _ _ g3, m]; rfl
    · rw [z _ _ _ g4, me]; rfl
  · intro hp
    have s : snrOf (some f) (some e) = none := by simp only [snrOf]; rw [if_neg hp]
    have m : magOf (some f) (some e) = none := by simp only [magOf]; rw [if_neg hp]
    have me : magErrOf (some f) (some e) = none := by simp only [magErrOf]; rw [if_neg hp]
    refine ⟨?_, ?_, ?_⟩
    · rw [z _ _ _ g1, s]; rfl
    · rw [z _ _ _ g3, m]; rfl
    · rw [z _ _ _ g4, me]; rfl

theorem timeRel_get {t0 : ℝ} {d d' : Dict Name (List PCell)} (h : addTimeRel (some t0) d = .ok d') :
    ∀ n, n ≠ "time_rel".toList → d'.get? n = d.get? n := by
  intro n hn
  unfold addTimeRel at h
  dsimp only at h
  split at h
  · cases hp : pnums d "mjd".toList with
    | error e => rw [hp] at h; cases h
    | ok l => rw [hp] at h; cases h; exact Dict.get?_set_ne _ _ (Ne.symm hn)
  · cases h; rfl

theorem mapM_ofOpt (l : List (Option ℝ)) : (l.map PCell.ofOpt).mapM PCell.val = .ok l := by
  induction l with
  | nil => rfl
  | cons x l ih =>
    rw [List.map_cons, List.mapM_cons, ih]
    cases x <;> rfl

/-- C44, a single lightcurve can be augmented whenever it has fluxes and errors (numbers or missing values), and times if it has a column of them. -/
theorem C44_single_ok {d : Dict Name (List PCell)} {flux err time : List (Option ℝ)} (hf : d.get? "flux".toList = some (flux.map PCell.ofOpt))
    (he : d.get? "fluxerr".toList = some (err.map PCell.ofOpt)) (ht : d.get? "mjd".toList = none ∨ d.get? "mjd".toList = some (time.map PCell.ofOpt))
    (minSnr : ℝ) (t0 : Option ℝ) : ∃ d', augmentSingle d minSnr t0 = .ok d' := by
  have p1 : pnums d "flux".toList = .ok flux := by unfold pnums; rw [hf]; exact mapM_ofOpt _
  have p2 : pnums d "fluxerr".toList = .ok err := by unfold pnums; rw [he]; exact mapM_ofOpt _
  have hhas : ∀ n v, d.get? n = some v → d.has n = true := by
    intro n v h
    exact (Dict.has_iff d n).2 (List.mem_map_of_mem (f := Prod.fst) (Dict.mem_of_get? h))
  have k1 := hhas _ _ hf
  have k2 := hhas _ _ he
  unfold augmentSingle
  rw [k1, k2]
  simp only [Bool.and_self, if_true, p1, p2]
  cases t0 with
  | none => exact ⟨_, rfl⟩
  | some x =>
    have hg : (addColumns (detectSingle minSnr) flux err d).get? "mjd".toList = d.get? "mjd".toList := (addColumns_get (detectSingle minSnr) flux err d).2.2.2.2 _ (by decide)
    unfold addTimeRel
    dsimp only
    split
    · rename_i hm
      rcases ht with ht | ht
      · rw [ht] at hg
        exact absurd ((Dict.has_iff _ _).1 hm) ((Dict.get?_eq_none_iff _ _).1 hg)
      · have p3 : pnums (addColumns (detectSingle minSnr) flux err d) "mjd".toList = .ok time := by unfold pnums; rw [hg, ht]; exact mapM_ofOpt _
        rw [p3]
        exact ⟨_, rfl⟩
    · exact ⟨_, rfl⟩

/-- C44, a single lightcurve: every entry gets its signal to noise, its detection flag, its magnitude and the error
of that; entries without a positive flux and error are marked missing and are not detections; the relative time is
the time minus t0 (any number, zero included); no other column changes. -/
theorem C44_single {d d' : Dict Name (List PCell)} {minSnr : ℝ} {t0 : Option ℝ} (h : augmentSingle d minSnr t0 = .ok d') :
    (∀ (p : Nat) (f e : ℝ), entry d "flux".toList p = some (.num f) → entry d "fluxerr".toList p = some (.num e) →
      EntryOK d' minSnr f e p ∧ (¬ (0 < f ∧ 0 < e) → entry d' "detection".toList p = some (.flag false))) ∧
    (∀ (x : ℝ) (p : Nat) (m : ℝ), t0 = some x → entry d "mjd".toList p = some (.num m) → entry d' "time_rel".toList p = some (.num (m - x))) ∧
    ∀ other, other ∉ added → d'.get? other = d.get? other := by
  unfold augmentSingle at h
  split at h
  · cases hf : pnums d "flux".toList with
    | error e => rw [hf] at h; cases h
    | ok flux =>
      rw [hf] at h; dsimp only at h
      cases he : pnums d "fluxerr".toList with
      | error e => rw [he] at h; cases h
      | ok err =>
        rw [he] at h; dsimp only at h
        obtain ⟨h1, h2, h3, h4, h5⟩ := addColumns_get (detectSingle minSnr) flux err d
        have hn : ∀ n, n ≠ "time_rel".toList → d'.get? n = (addColumns (detectSingle minSnr) flux err d).get? n := by
          intro n hn
          cases t0 with
          | none => cases h; rfl
          | some x => exact timeRel_get h n hn
        have hne : ∀ n ∈ ["snr".toList, "detection".toList, "mag".toList, "magerr".toList], n ≠ "time_rel".toList := by
          decide
        refine ⟨?_, ?_, ?_⟩
        · intro p f e pf pe
          have lf := (entry_num (pnums_ok hf)).1 pf
          have le := (entry_num (pnums_ok he)).1 pe
          refine ⟨entries_ok (detect := detectSingle minSnr) (fun x => rfl) (fun n hm => hn n (hne n hm)) lf le, ?_⟩
          intro hp
          have g2 := (hn _ (hne "detection".toList (by simp))).trans h2
          unfold entry
          rw [g2]
          have s : snrOf (some f) (some e) = none := by simp only [snrOf]; rw [if_neg hp]
          simp [List.getElem?_zipWith, lf, le, s, detectSingle]
        · intro x p m hx hm
          subst hx
          have hmn : ("mjd".toList) ∉ added := by decide
          have hget := h5 _ hmn
          unfold addTimeRel at h
          dsimp only at h
          have hmd : ∃ c, d.get? "mjd".toList = some c := by
            unfold entry at hm
            cases hc : d.get? "mjd".toList with
            | none => rw [hc] at hm; cases hm
            | some c => exact ⟨c, rfl⟩
          obtain ⟨c, hc⟩ := hmd
          rw [if_pos (by unfold Dict.has; rw [hget, hc]; rfl)] at h
          cases hp : pnums (addColumns (detectSingle minSnr) flux err d) "mjd".toList with
          | error e => rw [hp] at h; cases h
          | ok l =>
            rw [hp] at h
            cases h
            have hl := (pnums_ok hp)
            rw [hget] at hl
            have := (entry_num hl).1 hm
            unfold entry
            rw [Dict.get?_set_self]
            simp [this, subOpt, PCell.ofOpt]
        · intro other ho
          have hto : other ≠ "time_rel".toList := fun e => ho (by rw [e]; decide)
          rw [hn other hto, h5 other ho]
  · cases h

/-! ### Nested tables -/

/-- The nested result keeps everything but the added columns. -/
theorem nested_run {r r' : NFrame} {minSnr : ℝ} (h : augmentNested r minSnr = .ok r') :
    ∃ lc flux err flat, r.lc = some lc ∧ lc.flat.get? "flux".toList = some (flux.map PCell.ofOpt) ∧
      lc.flat.get? "fluxerr".toList = some (err.map PCell.ofOpt) ∧
      nestedT0 r.cols r.labels lc.counts (addColumns (detectCell minSnr) flux err lc.flat) = .ok flat ∧
      r' = { r with lc := some ⟨lc.counts, flat⟩ } := by
  unfold augmentNested at h
  cases hlc : r.lc with
  | none => rw [hlc] at h; cases h
  | some lc =>
    rw [hlc] at h; dsimp only at h
    split at h
    · cases hf : pnums lc.flat "flux".toList with
      | error e => rw [hf] at h; cases h
      | ok flux =>
        rw [hf] at h; dsimp only at h
        cases he : pnums lc.flat "fluxerr".toList with
        | error e => rw [he] at h; cases h
        | ok err =>
          rw [he] at h; dsimp only at h
          cases ht : nestedT0 r.cols r.labels lc.counts (addColumns (detectCell minSnr) flux err lc.flat) with
          | error e => rw [ht] at h; cases h
          | ok flat =>
            rw [ht] at h
            cases h
            exact ⟨lc, flux, err, flat, rfl, pnums_ok hf, pnums_ok he, ht, rfl⟩
    · cases h

theorem nestedT0_get {cols : Dict Name (List PCell)} {labels : List Int} {counts : List Nat} {flat flat' : Dict Name (List PCell)}
    (h : nestedT0 cols labels counts flat = .ok flat') : ∀ n, n ≠ "time_rel".toList → flat'.get? n = flat.get? n := by
  intro n hn
  unfold nestedT0 at h
  split at h
  · cases hp : pnums cols "t0".toList with
    | error e => rw [hp] at h; cases h
    | ok t0 =>
      rw [hp] at h; dsimp only at h
      cases hu : usableT0 t0 with
      | none => rw [hu] at h; cases h; rfl
      | some l =>
        rw [hu] at h; dsimp only [nestedTimeRel] at h
        split at h
        · cases hm : pnums flat "mjd".toList with
          | error e => rw [hm] at h; cases h
          | ok mjd =>
            rw [hm] at h; dsimp only at h
            cases ho : takeAt l (flatLabels labels counts) with
            | error e => rw [ho] at h; cases h
            | ok own => rw [ho] at h; cases h; exact Dict.get?_set_ne _ _ (Ne.symm hn)
        · cases h
  · cases h; rfl

/-- C44, nested tables: every entry with a positive flux and error gets its signal to noise, its detection flag
(true exactly from the threshold on), its magnitude and the error of that; signal to noise and magnitudes of the other
entries are missing. Rows, entries per row and all other columns are unchanged. What the full property asks beyond
this is that the detection flag of the other entries is false (`C44_detection_counterexample`), and relative times
(`C44_time_rel_partial`). -/
theorem C44_entries_partial {r r' : NFrame} {minSnr : ℝ} (h : augmentNested r minSnr = .ok r') :
    r'.labels = r.labels ∧ r'.cols = r.cols ∧ ∃ lc lc', r.lc = some lc ∧ r'.lc = some lc' ∧ lc'.counts = lc.counts ∧
      (∀ other, other ∉ added → lc'.flat.get? other = lc.flat.get? other) ∧
      ∀ (p : Nat) (f e : ℝ), entry lc.flat "flux".toList p = some (.num f) → entry lc.flat "fluxerr".toList p = some (.num e) →
        EntryOK lc'.flat minSnr f e p := by
  obtain ⟨lc, flux, err, flat, hlc, hf, he, ht, rfl⟩ := nested_run h
  refine ⟨rfl, rfl, lc, _, hlc, rfl, rfl, ?_, ?_⟩
  · intro other ho
    have hto : other ≠ "time_rel".toList := fun e => ho (by rw [e]; decide)
    exact (nestedT0_get ht other hto).trans ((addColumns_get _ _ _ _).2.2.2.2 other ho)
  · intro p f e pf pe
    have hne : ∀ n ∈ ["snr".toList, "detection".toList, "mag".toList, "magerr".toList], n ≠ "time_rel".toList := by
      decide
    exact entries_ok (detect := detectCell minSnr) (fun x => rfl) (fun n hm => nestedT0_get ht n (hne n hm))
      ((entry_num hf).1 pf) ((entry_num he).1 pe)

theorem usable_of {t0 : List ℝ} (h : ∀ x ∈ t0, x ≠ 0) : usableT0 (t0.map some) = some t0 := by
  induction t0 with
  | nil => rfl
  | cons x l ih =>
    simp only [List.map_cons, usableT0]
    rw [if_neg (h x (by simp)), ih (fun y hy => h y (List.mem_cons_of_mem _ hy))]

/-- The labels of the entries are the row numbers when the rows are numbered in order. -/
theorem flatLabels_range (counts : List Nat) (k : Nat) :
    flatLabels ((List.range' k counts.length).map Int.ofNat) counts = (ownerFrom k counts).map Int.ofNat := by
  induction counts generalizing k with
  | nil => rfl
  | cons n counts ih =>
    have := ih (k + 1)
    unfold flatLabels at this ⊢
    simp only [List.length_cons, List.range'_succ, List.map_cons, List.zipWith_cons_cons, List.flatten_cons, ownerFrom,
      List.map_append, List.map_replicate]
    rw [this]

theorem owner_lt (counts : List Nat) (k : Nat) : ∀ r ∈ ownerFrom k counts, r < k + counts.length := by
  induction counts generalizing k with
  | nil => intro r h; simp [ownerFrom] at h
  | cons n counts ih =>
    intro r h
    simp only [ownerFrom, List.mem_append, List.mem_replicate] at h
    rcases h with ⟨_, rfl⟩ | h
    · simp
    · have := ih (k + 1) r h
      simp only [List.length_cons]
      omega

theorem takeAt_owner {t0 : List ℝ} {rows : List Nat} (h : ∀ r ∈ rows, r < t0.length) :
    ∃ own, takeAt t0 (rows.map Int.ofNat) = .ok own ∧ rows.map (fun r => t0[r]?) = own.map some := by
  unfold takeAt
  have : ∃ own, (rows.map Int.ofNat).mapM (fun i => (ObsTable.normIndex t0.length i).bind fun k => t0[k]?) = some own ∧
      rows.map (fun r => t0[r]?) = own.map some := by
    induction rows with
    | nil => exact ⟨[], rfl, rfl⟩
    | cons r rows ih =>
      obtain ⟨own, h1, h2⟩ := ih (fun x hx => h x (List.mem_cons_of_mem _ hx))
      have hr := h r (by simp)
      have hn : ObsTable.normIndex t0.length (Int.ofNat r) = some r := by
        unfold ObsTable.normIndex
        rw [if_pos (show (0 : Int) ≤ Int.ofNat r from Int.natCast_nonneg r)]
        simp [hr]
      have hg : t0[r]? = some t0[r] := List.getElem?_eq_getElem hr
      refine ⟨t0[r] :: own, ?_, by simp [h2, hg]⟩
      rw [List.map_cons, List.mapM_cons, hn, h1]
      simp [hg]
  obtain ⟨own, h1, h2⟩ := this
  rw [h1]
  exact ⟨own, rfl, h2⟩

theorem val_inv (l : List (Option ℝ)) : (l.map PCell.ofOpt).mapM PCell.val = .ok l := by
  induction l with
  | nil => rfl
  | cons y l ih =>
    cases y <;> simp only [List.map_cons, List.mapM_cons, ih, PCell.ofOpt] <;> rfl

theorem pnums_of {d : Dict Name (List PCell)} {n : Name} {l : List (Option ℝ)} (h : d.get? n = some (l.map PCell.ofOpt)) :
    pnums d n = .ok l := by
  unfold pnums; rw [h]; exact val_inv l

theorem has_of {d : Dict Name (List PCell)} {n : Name} {c} (h : d.get? n = some c) : d.has n = true := by
  unfold Dict.has; rw [h]; rfl

/-- How a table with a non-zero t0 in every row is augmented. -/
theorem augment_run {r : NFrame} {lc : NestCol} {minSnr : ℝ} {t0 : List ℝ} {flux err mjd : List (Option ℝ)}
    (hlc : r.lc = some lc) (ht : r.cols.get? "t0".toList = some (t0.map PCell.num)) (h0 : ∀ x ∈ t0, x ≠ 0)
    (hf : lc.flat.get? "flux".toList = some (flux.map PCell.ofOpt)) (he : lc.flat.get? "fluxerr".toList = some (err.map PCell.ofOpt))
    (hm : lc.flat.get? "mjd".toList = some (mjd.map PCell.ofOpt)) :
    augmentNested r minSnr = match takeAt t0 (flatLabels r.labels lc.counts) with
      | .error e => .error e
      | .ok own => .ok { r with lc := some ⟨lc.counts, (addColumns (detectCell minSnr) flux err lc.flat).set "time_rel".toList
          ((List.zipWith (fun t m => subOpt t m) own mjd).map PCell.ofOpt)⟩ } := by
  have ht' : r.cols.get? "t0".toList = some ((t0.map some).map PCell.ofOpt) := by
    rw [ht]; simp only [List.map_map]; rfl
  have hmget : (addColumns (detectCell minSnr) flux err lc.flat).get? "mjd".toList = some (mjd.map PCell.ofOpt) :=
    ((addColumns_get _ _ _ _).2.2.2.2 _ (by decide)).trans hm
  have hrun : nestedT0 r.cols r.labels lc.counts (addColumns (detectCell minSnr) flux err lc.flat) =
      match takeAt t0 (flatLabels r.labels lc.counts) with
      | .error e => .error e
      | .ok own => .ok ((addColumns (detectCell minSnr) flux err lc.flat).set "time_rel".toList
        ((List.zipWith (fun t m => subOpt t m) own mjd).map PCell.ofOpt)) := by
    unfold nestedT0
    rw [if_pos (has_of ht'), pnums_of ht']
    dsimp only
    rw [usable_of h0]
    dsimp only [nestedTimeRel]
    rw [if_pos (has_of hmget), pnums_of hmget]
    rfl
  unfold augmentNested
  rw [hlc]
  dsimp only
  rw [if_pos (by rw [has_of hf, has_of he]; rfl), pnums_of hf]
  dsimp only
  rw [pnums_of he]
  dsimp only
  rw [hrun]
  cases takeAt t0 (flatLabels r.labels lc.counts) <;> rfl

/-- C44, relative times, for a table whose rows are labelled 0, 1, 2, ... (as every simulation returns it) and whose
t0 are all non-zero: augmenting succeeds and every entry's relative time is its time minus the t0 of the row the
entry belongs to. The full property has no such restriction on labels and t0
(`C44_filtered_counterexample`, `C44_reordered_counterexample`, `C44_zero_t0_counterexample`). -/
theorem C44_time_rel_partial {r : NFrame} {lc : NestCol} {minSnr : ℝ} {t0 : List ℝ} {flux err mjd : List (Option ℝ)}
    (hlc : r.lc = some lc) (hn : lc.counts.length = r.labels.length) (hlabels : r.labels = (List.range r.labels.length).map Int.ofNat)
    (ht : r.cols.get? "t0".toList = some (t0.map PCell.num)) (htl : t0.length = r.labels.length) (h0 : ∀ x ∈ t0, x ≠ 0)
    (hf : lc.flat.get? "flux".toList = some (flux.map PCell.ofOpt)) (he : lc.flat.get? "fluxerr".toList = some (err.map PCell.ofOpt))
    (hm : lc.flat.get? "mjd".toList = some (mjd.map PCell.ofOpt)) :
    ∃ r' lc', augmentNested r minSnr = .ok r' ∧ r'.lc = some lc' ∧
      ∀ (p row : Nat) (m x : ℝ), (owner lc.counts)[p]? = some row → t0[row]? = some x →
        entry lc.flat "mjd".toList p = some (.num m) → entry lc'.flat "time_rel".toList p = some (.num (m - x)) := by
  obtain ⟨own, ho, hown⟩ := takeAt_owner (t0 := t0) (rows := owner lc.counts) (by
    intro row hr
    have := owner_lt lc.counts 0 row hr
    omega)
  have hfl : flatLabels r.labels lc.counts = (owner lc.counts).map Int.ofNat := by
    have := flatLabels_range lc.counts 0
    rw [← List.range_eq_range', hn, ← hlabels] at this
    exact this
  have hrun := augment_run (minSnr := minSnr) hlc ht h0 hf he hm
  rw [hfl, ho] at hrun
  refine ⟨_, _, hrun, rfl, ?_⟩
  intro p row m x hp hx hm'
  have hpm := (entry_num hm).1 hm'
  have := congrArg (fun q => q[p]?) hown
  simp only [List.getElem?_map, hp, Option.map_some, hx] at this
  cases hop : own[p]? with
  | none => rw [hop] at this; cases this
  | some y =>
    rw [hop] at this
    simp only [Option.map_some, Option.some.injEq] at this
    subst this
    unfold entry
    rw [Dict.get?_set_self]
    simp [List.getElem?_zipWith, hop, hpm, subOpt, PCell.ofOpt]

/-- A result table with one entry per row. -/
def onePerRow (labels : List Int) (t0 flux mjd : List ℝ) : NFrame :=
  { labels := labels
    cols := [("t0".toList, t0.map PCell.num)]
    lc := some ⟨labels.map fun _ => 1, [("flux".toList, (flux.map some).map PCell.ofOpt),
      ("fluxerr".toList, (flux.map fun _ => some 1).map PCell.ofOpt), ("mjd".toList, (mjd.map some).map PCell.ofOpt)]⟩ }

theorem one_run (labels : List Int) (t0 flux mjd : List ℝ) (minSnr : ℝ) (h0 : ∀ x ∈ t0, x ≠ 0) :
    augmentNested (onePerRow labels t0 flux mjd) minSnr = match takeAt t0 (flatLabels labels (labels.map fun _ => 1)) with
      | .error e => .error e
      | .ok own => .ok { onePerRow labels t0 flux mjd with lc := some ⟨labels.map fun _ => 1,
          (addColumns (detectCell minSnr) (flux.map some) (flux.map fun _ => some 1)
            [("flux".toList, (flux.map some).map PCell.ofOpt),
             ("fluxerr".toList, (flux.map fun _ => some 1).map PCell.ofOpt), ("mjd".toList, (mjd.map some).map PCell.ofOpt)]).set
            "time_rel".toList ((List.zipWith (fun t m => subOpt t m) own (mjd.map some)).map PCell.ofOpt)⟩ } :=
  augment_run (r := onePerRow labels t0 flux mjd) (minSnr := minSnr) (flux := flux.map some) (err := flux.map fun _ => some 1)
    (mjd := mjd.map some) rfl rfl h0 rfl rfl rfl

/-- C44 fails after selecting rows: with the second row of a two-row result (label 1), augmenting raises IndexError,
because the label is used as a position. -/
theorem C44_filtered_counterexample : augmentNested (onePerRow [1] [59001] [10] [59003]) 5 = .error .indexError := by
  have h := one_run [1] [59001] [10] [59003] 5 (by simp)
  exact h.trans rfl

/-- C44 fails after sorting rows: the rows labelled 1 and 0 get each other's t0. -/
theorem C44_reordered_counterexample : ∃ r' lc', augmentNested (onePerRow [1, 0] [59001, 50000] [10, 10] [59003, 50003]) 5 = .ok r' ∧
    r'.lc = some lc' ∧ entry lc'.flat "time_rel".toList 0 = some (.num (59003 - 50000)) ∧
    entry lc'.flat "time_rel".toList 1 = some (.num (50003 - 59001)) := by
  have h := one_run [1, 0] [59001, 50000] [10, 10] [59003, 50003] 5 (by simp)
  refine ⟨_, _, h.trans rfl, rfl, ?_, ?_⟩
  · unfold entry; rw [Dict.get?_set_self]; rfl
  · unfold entry; rw [Dict.get?_set_self]; rfl

/-- C44 fails for a t0 of zero: no entry of any row gets a relative time. -/
theorem C44_zero_t0_counterexample : ∃ r' lc', augmentNested (onePerRow [0, 1] [59001, 0] [10, 10] [59003, 3]) 5 = .ok r' ∧
    r'.lc = some lc' ∧ lc'.flat.get? "time_rel".toList = none := by
  have hu : usableT0 [some 59001, some 0] = none := by
    simp only [usableT0]; norm_num
  have hp : pnums (onePerRow [0, 1] [59001, 0] [10, 10] [59003, 3]).cols "t0".toList = .ok [some 59001, some 0] := rfl
  unfold augmentNested
  have hlc : (onePerRow [0, 1] [59001, 0] [10, 10] [59003, 3]).lc = some ⟨[1, 1], [("flux".toList, [.num 10, .num 10]),
      ("fluxerr".toList, [.num 1, .num 1]), ("mjd".toList, [.num 59003, .num 3])]⟩ := rfl
  rw [hlc]
  dsimp only
  rw [if_pos (show (Dict.has [("flux".toList, [PCell.num 10, .num 10]),
      ("fluxerr".toList, [.num 1, .num 1]), ("mjd".toList, [.num 59003, .num 3])] "flux".toList &&
      Dict.has [("flux".toList, [PCell.num 10, .num 10]),
      ("fluxerr".toList, [.num 1, .num 1]), ("mjd".toList, [.num 59003, .num 3])] "fluxerr".toList) = true from rfl),
    show pnums [("flux".toList, [PCell.num 10, .num 10]),
      ("fluxerr".toList, [.num 1, .num 1]), ("mjd".toList, [.num 59003, .num 3])] "flux".toList = .ok [some 10, some 10] from rfl]
  dsimp only
  rw [show pnums [("flux".toList, [PCell.num 10, .num 10]),
      ("fluxerr".toList, [.num 1, .num 1]), ("mjd".toList, [.num 59003, .num 3])] "fluxerr".toList = .ok [some 1, some 1] from rfl]
  dsimp only
  unfold nestedT0
  rw [if_pos (show (onePerRow [0, 1] [59001, 0] [10, 10] [59003, 3]).cols.has "t0".toList = true from rfl), hp]
  dsimp only
  rw [hu]
  refine ⟨_, _, rfl, rfl, ?_⟩
  rfl

/-- C44 fails for the detection flag of an entry without a positive flux: it is missing, not false (while
`augment_single_lightcurve` gives false, `C44_single`). -/
theorem C44_detection_counterexample : ∃ r' lc', augmentNested (onePerRow [0] [59001] [-1] [59003]) 5 = .ok r' ∧
    r'.lc = some lc' ∧ entry lc'.flat "detection".toList 0 = some .missing := by
  have h := one_run [0] [59001] [-1] [59003] 5 (by simp)
  refine ⟨_, _, h.trans rfl, rfl, ?_⟩
  have hs : snrOf (some (-1)) (some 1) = none := by simp only [snrOf]; norm_num
  unfold entry
  dsimp only
  rw [Dict.get?_set_ne _ _ (ne_name (by decide)), (addColumns_get _ _ _ _).2.1]
  simp [hs, detectCell]

/-- C44: a table without lightcurves, or lightcurves without fluxes or flux errors, raise ValueError. -/
theorem C44_rejects (r : NFrame) (minSnr : ℝ)
    (h : r.lc = none ∨ ∃ lc, r.lc = some lc ∧ (lc.flat.get? "flux".toList = none ∨ lc.flat.get? "fluxerr".toList = none)) :
    augmentNested r minSnr = .error .valueError := by
  unfold augmentNested
  rcases h with h | ⟨lc, h, h'⟩
  · rw [h]
  · rw [h]
    dsimp only
    rw [if_neg]
    unfold Dict.has
    rcases h' with h' | h'
    · rw [h']; exact fun e => by cases e
    · rw [h', Option.isSome_none, Bool.and_false]; exact fun e => by cases e

/-- Two rows with three entries meet the hypotheses of the theorems above. -/
example : ∃ (r : NFrame) (lc : NestCol), r.lc = some lc ∧ lc.counts = [2, 1] ∧ owner lc.counts = [0, 0, 1] ∧ PostSpec.WF r ∧
    r.labels = (List.range r.labels.length).map Int.ofNat ∧ r.cols.get? "t0".toList = some ([59000, 59001].map PCell.num) ∧
    lc.flat.get? "mjd".toList = some ([some 1, some 2, some 3].map PCell.ofOpt) :=
  ⟨⟨[0, 1], [("t0".toList, [.num 59000, .num 59001])], some ⟨[2, 1], [("mjd".toList, [.num 1, .num 2, .num 3])]⟩⟩, _, rfl, rfl, rfl,
    ⟨by simp, by intro c hc; cases hc; simp⟩, rfl, rfl, rfl⟩

/-! ### C72 -/

theorem keepIf_all {β : Type} (l : List β) (m : List Bool) (hm : ∀ b ∈ m, b = true) (hl : m.length = l.length) : keepIf m l = l := by
  induction l generalizing m with
  | nil => cases m <;> simp_all [keepIf]
  | cons x l ih =>
    cases m with
    | nil => simp at hl
    | cons b m =>
      have := hm b (by simp)
      subst this
      simp only [keepIf]
      rw [ih m (fun c hc => hm c (List.mem_cons_of_mem _ hc)) (by simpa using hl)]

theorem flatMask_true (counts : List Nat) : (∀ b ∈ flatMask (counts.map fun n => decide (0 < n)) counts, b = true) ∧
    (flatMask (counts.map fun n => decide (0 < n)) counts).length = counts.sum := by
  unfold flatMask
  induction counts with
  | nil => simp
  | cons n counts ih =>
    simp only [List.map_cons, List.zipWith_cons_cons, List.flatten_cons, List.mem_append, List.length_append, List.length_replicate, List.sum_cons]
    refine ⟨?_, by rw [ih.2]⟩
    rintro b (h | h)
    · rw [List.mem_replicate] at h
      obtain ⟨h1, rfl⟩ := h
      simp; omega
    · exact ih.1 b h

/-- C72. Dropping empty lightcurves keeps exactly the rows that have entries, in order, with all their columns; every
entry of every lightcurve is kept. -/
theorem C72_drop_empty {r : NFrame} {lc : NestCol} (hwf : PostSpec.WF r) (hlc : r.lc = some lc) :
    ∃ r' lc', dropEmpty r = .ok r' ∧ r'.lc = some lc' ∧ lc'.flat = lc.flat ∧ lc'.counts = lc.counts.filter (fun n => decide (0 < n)) ∧
      r'.labels = ((r.labels.zip lc.counts).filter fun q => decide (0 < q.2)).map (·.1) ∧
      r'.cols.keys = r.cols.keys ∧
      (∀ name c, (name, c) ∈ r.cols → (name, ((c.zip lc.counts).filter fun q => decide (0 < q.2)).map (·.1)) ∈ r'.cols) ∧
      PostSpec.WF r' := by
  have key : ∀ {β : Type} (l : List β) (counts : List Nat), counts.length = l.length →
      keepIf (counts.map fun n => decide (0 < n)) l = ((l.zip counts).filter fun q => decide (0 < q.2)).map (·.1) := by
    intro β l
    induction l with
    | nil => intro counts h; cases counts <;> simp_all [keepIf]
    | cons x l ih =>
      intro counts h
      cases counts with
      | nil => simp at h
      | cons n counts =>
        have := ih counts (by simpa using h)
        by_cases hn : 0 < n
        · simp [keepIf, hn, this]
        · simp [keepIf, hn, this]
  have klen : ∀ {β γ : Type} (m : List Bool) (l : List β) (l' : List γ), l.length = l'.length → (keepIf m l).length = (keepIf m l').length := by
    intro β γ m
    induction m with
    | nil => intro l l' h; cases l <;> cases l' <;> simp_all [keepIf]
    | cons b m ih =>
      intro l l' h
      cases l with
      | nil => cases l' with
        | nil => cases b <;> rfl
        | cons _ _ => simp at h
      | cons x l => cases l' with
        | nil => simp at h
        | cons y l' =>
          have := ih l l' (by simpa using h)
          cases b <;> simp [keepIf, this]
  have kself : ∀ counts : List Nat, keepIf (counts.map fun n => decide (0 < n)) counts = counts.filter (fun n => decide (0 < n)) := by
    intro counts
    induction counts with
    | nil => rfl
    | cons n counts ih =>
      by_cases hn : 0 < n
      · simp [keepIf, hn, ih]
      · simp [keepIf, hn, ih]
  have ksum : ∀ counts : List Nat, (counts.filter (fun n => decide (0 < n))).sum = counts.sum := by
    intro counts
    induction counts with
    | nil => rfl
    | cons n counts ih =>
      by_cases hn : 0 < n
      · simp [hn, ih]
      · have : n = 0 := by omega
        simp [this, ih]
  obtain ⟨hcl, hfl⟩ := hwf.flat lc hlc
  obtain ⟨ft, fl⟩ := flatMask_true lc.counts
  have hflat : (lc.flat.map fun q => (q.1, keepIf (flatMask (lc.counts.map fun n => decide (0 < n)) lc.counts) q.2)) = lc.flat := by
    conv_rhs => rw [← List.map_id lc.flat]
    apply List.map_congr_left
    intro q hq
    rw [keepIf_all q.2 _ ft (by rw [fl, hfl q hq])]
    rfl
  refine ⟨r.select (lc.counts.map fun n => decide (0 < n)), ⟨lc.counts.filter (fun n => decide (0 < n)), lc.flat⟩, ?_, ?_, rfl, rfl, ?_, ?_, ?_, ?_, ?_⟩
  · unfold dropEmpty; rw [hlc]
  · unfold NFrame.select
    simp only [hlc, Option.map_some]
    rw [kself]
    exact congrArg some (congrArg (NestCol.mk _) hflat)
  · exact key _ _ hcl
  · simp [NFrame.select, Dict.keys, List.map_map, Function.comp_def]
  · intro name c hc
    rw [← key c lc.counts (by rw [hcl]; exact (hwf.cols _ hc).symm)]
    exact List.mem_map.2 ⟨(name, c), hc, rfl⟩
  · intro q hq
    obtain ⟨q', hq', rfl⟩ := List.mem_map.1 hq
    exact klen _ _ _ (hwf.cols q' hq')
  · intro c hc
    unfold NFrame.select at hc
    simp only [hlc, Option.map_some, Option.some.injEq] at hc
    subst hc
    refine ⟨klen _ _ _ hcl, ?_⟩
    intro q hq
    dsimp only at hq ⊢
    rw [hflat] at hq
    rw [kself, ksum]
    exact hfl q hq

end LCL.PostProps
