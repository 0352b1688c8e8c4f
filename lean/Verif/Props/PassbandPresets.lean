import Verif.Props.PassbandGroupFiles

/-!
# Property C114 (presets and the SVO service), and concrete directories for C113 and C115
-/

namespace LCL.PbFilesProps
open LCL LCL.PbFiles LCL.PbFilesSpec

section
variable {K : Type} [Field K] [LinearOrder K] [IsStrictOrderedRing K] [FloorRing K]

theorem mapM_forall₂ {β γ : Type} (f : β → Except Err γ) : ∀ (l : List β) {out : List γ}, l.mapM f = .ok out → List.Forall₂ (fun x y => f x = .ok y) l out
  | [], out, h => by cases h; exact .nil
  | x :: l, out, h => by
    rw [List.mapM_cons] at h
    cases h1 : f x with
    | error e => rw [h1] at h; cases h
    | ok y =>
      rw [h1] at h
      cases h2 : l.mapM f with
      | error e => rw [h2] at h; cases h
      | ok ys =>
        rw [h2] at h
        cases h
        exact .cons h1 (mapM_forall₂ f l h2)

/-- A filter is asked for, by its own or its full name. -/
def AskedFor (filters : Option (List Name)) (full f : Name) : Prop := ∀ fs, filters = some fs → full ∈ fs ∨ f ∈ fs

/-- A group made of one passband per filter name. -/
theorem group_of {pre : Name} {fs : List Name} {pbs : List (Passband K)} {P : Name → Passband K → Prop} (hall : List.Forall₂ P fs pbs)
    (hname : ∀ f pb, P f pb → pb.fullName = pre ++ "_".toList ++ f ∧ pb.filterName = f) (hdet : ∀ f pb pb', P f pb → P f pb' → pb = pb')
    {filters : Option (List Name)} {g : PassbandGroup K} (h : PassbandGroup.init pbs filters = .ok g) (n : Name) (pb : Passband K) :
    g.passbands.get? n = some pb ↔ ∃ f ∈ fs, AskedFor filters n f ∧ n = pre ++ "_".toList ++ f ∧ P f pb := by
  have hmemL : ∀ pb ∈ pbs, ∃ f ∈ fs, P f pb := by
    intro pb hpb
    obtain ⟨i, hi, rfl⟩ := List.getElem_of_mem hpb
    have hi' : i < fs.length := by rw [hall.length_eq]; exact hi
    exact ⟨fs[i], List.getElem_mem _, hall.get hi' hi⟩
  have hmemR : ∀ f ∈ fs, ∃ pb ∈ pbs, P f pb := by
    intro f hf
    obtain ⟨i, hi, rfl⟩ := List.getElem_of_mem hf
    have hi' : i < pbs.length := by rw [← hall.length_eq]; exact hi
    exact ⟨pbs[i], List.getElem_mem _, hall.get hi hi'⟩
  have hfind : ∀ n pb, pbs.reverse.find? (fun pb => decide (pb.fullName = n)) = some pb ↔ ∃ f ∈ fs, n = pre ++ "_".toList ++ f ∧ P f pb := by
    intro n pb
    constructor
    · intro hf
      have hm := List.mem_of_find?_eq_some hf
      have hn := List.find?_some hf
      simp only [decide_eq_true_eq] at hn
      obtain ⟨f, hf, hp⟩ := hmemL pb (by simpa using hm)
      exact ⟨f, hf, hn.symm.trans (hname f pb hp).1, hp⟩
    · rintro ⟨f, hf, hn, hp⟩
      obtain ⟨pb', hpb', hp'⟩ := hmemR f hf
      cases hdet f _ _ hp hp'
      cases hfd : pbs.reverse.find? (fun pb => decide (pb.fullName = n)) with
      | none =>
        rw [List.find?_eq_none] at hfd
        exact absurd ((hname f pb hp).1.trans hn.symm) (by simpa using hfd pb (by simpa using hpb'))
      | some pb2 =>
        have hm := List.mem_of_find?_eq_some hfd
        have hn2 := List.find?_some hfd
        simp only [decide_eq_true_eq] at hn2
        obtain ⟨f2, _, hp2⟩ := hmemL pb2 (by simpa using hm)
        have hs : f2 = f := List.append_cancel_left ((hname f2 pb2 hp2).1.symm.trans (hn2.trans hn))
        subst hs
        rw [hdet _ _ _ hp2 hp]
  cases filters with
  | none =>
    rw [(PassbandGroupProps.C64_filters_partial pbs []).2.2 g h n, hfind]
    constructor
    · rintro ⟨f, hf, hn, hp⟩; exact ⟨f, hf, (by intro fs e; cases e), hn, hp⟩
    · rintro ⟨f, hf, _, hn, hp⟩; exact ⟨f, hf, hn, hp⟩
  | some want =>
    rw [((PassbandGroupProps.C64_filters_partial pbs want).1 g h).1 n pb, hfind]
    constructor
    · rintro ⟨⟨f, hf, hn, hp⟩, hr⟩
      refine ⟨f, hf, ?_, hn, hp⟩
      intro fs e
      cases e
      rcases hr with hr | hr
      · exact Or.inl hr
      · rw [(hname f pb hp).2] at hr; exact Or.inr hr
    · rintro ⟨f, hf, ha, hn, hp⟩
      refine ⟨⟨f, hf, hn, hp⟩, ?_⟩
      rcases ha want rfl with hr | hr
      · exact Or.inl hr
      · right; rw [(hname f pb hp).2]; exact hr

/-- The filters of the presets. -/
def lsstFilters : List Name := ["u", "g", "r", "i", "z", "y"].map String.toList
def ztfFilters : List Name := ["g", "r", "i"].map String.toList
def romanFilters : List Name := ["F062", "F087", "F106", "F129", "F146", "F158", "F184", "F213"].map String.toList

theorem child_name {a : FPath} {s : Name} (h : (splitAt '/' s).filter (· ≠ []) = [s]) : (a.child s).name = s := by
  unfold FPath.child
  rw [h]
  exact name_snoc _ _ _

/-- The passband of an LSST filter: from its file of the table directory, whose wavelengths are in nanometers. -/
def LsstBand (d : Disk K) (dir : FPath) (delta trim : Option K) (f : Name) (pb : Passband K) : Prop :=
  ∃ t, d.files.get? (d.loc ((dir.child "LSST".toList).child (f ++ ".dat".toList))) = some (.text (rowsOf t)) ∧ Increasing t ∧
    Passband.init t "LSST".toList f delta trim "nm" = .ok pb

theorem lsst_ascii {dir : FPath} {f : Name} (hf : f ∈ lsstFilters) : AsciiName ((dir.child "LSST".toList).child (f ++ ".dat".toList)).name := by
  have : (splitAt '/' (f ++ ".dat".toList)).filter (· ≠ []) = [f ++ ".dat".toList] ∧ AsciiName (f ++ ".dat".toList) := by
    unfold AsciiName
    unfold lsstFilters at hf
    simp only [List.map_cons, List.map_nil, List.mem_cons, List.not_mem_nil, or_false] at hf
    rcases hf with rfl | rfl | rfl | rfl | rfl | rfl <;> decide
  rw [child_name this.1]
  exact this.2

theorem loadLsst_spec {net : Net K} {base dir : FPath} {kw : PresetKw K} : ∀ (fs : List Name) {d d' : Disk K} {pbs : List (Passband K)}, (∀ f ∈ fs, f ∈ lsstFilters) →
    loadLsst net base dir kw d fs = .ok (pbs, d') → (d'.cwd = d.cwd ∧ ∀ l c, d.files.get? l = some c → d'.files.get? l = some c) ∧
      List.Forall₂ (LsstBand d' dir (kw.delta.getD (some 5)) (kw.trim.getD (some (1 / 1000)))) fs pbs
  | [], d, d', pbs, _, h => by cases h; exact ⟨⟨rfl, fun _ _ h => h⟩, .nil⟩
  | f :: fs, d, d', pbs, hfs, h => by
    unfold loadLsst at h
    split at h
    · cases h
    · rename_i pb0 d0 h0
      split at h
      · cases h
      · rename_i pbs1 d1 h1
        cases h
        obtain ⟨k1, k2⟩ := loadLsst_spec fs (fun f hf => hfs f (by simp [hf])) h1
        have k0 := fromFile_keeps h0
        refine ⟨⟨k1.1.trans k0.1, fun l c hc => k1.2 l c (k0.2 l c hc)⟩, .cons ?_ k2⟩
        obtain ⟨c, t, u, e1, e2, e3, e4⟩ := fromFile_init h0
        dsimp only [tablePath] at e1 e2 e4
        have hasc := lsst_ascii (dir := dir) (hfs f (by simp))
        rcases e2 with ⟨_, rfl, rfl⟩ | ⟨hv, _⟩
        · refine ⟨t, ?_, e3, e4⟩
          have : d'.loc ((dir.child "LSST".toList).child (f ++ ".dat".toList)) = d0.loc ((dir.child "LSST".toList).child (f ++ ".dat".toList)) := by
            unfold Disk.loc; rw [k1.1]
          rw [this]
          exact k1.2 _ _ e1
        · exact absurd hv (fun h => not_both hasc h)

theorem rows_inj {t t' : List (K × K)} (h : rowsOf t = rowsOf t') : t = t' := by
  have := congrArg (fun l => l.mapM toPair) h
  simpa [mapM_toPair] using this

/-- C114. The LSST preset: a group with exactly the six filters (of those asked for), each made from its own file of the table directory (downloaded if it was
missing), with the requested step and trimming, reading wavelengths as nanometers; files that existed are not changed. -/
theorem C114_lsst {net : Net K} {registry : Name → Option (List (K × K))} {base : FPath} {d d' : Disk K} {preset : Name} {dir : Option FPath} {filters : Option (List Name)}
    {kw : PresetKw K} {g : PassbandGroup K} (hp : lower preset = "lsst".toList) (h : fromPreset net registry base d preset dir filters kw = .ok (g, d')) :
    (kw.units = none ∨ kw.units = some "nm") ∧ (∀ l c, d.files.get? l = some c → d'.files.get? l = some c) ∧
    ∀ n pb, g.passbands.get? n = some pb ↔ ∃ f ∈ lsstFilters, AskedFor filters n f ∧ n = "LSST".toList ++ "_".toList ++ f ∧
      LsstBand d' (dir.getD (base.child "passbands".toList)) (kw.delta.getD (some 5)) (kw.trim.getD (some (1 / 1000))) f pb := by
  unfold fromPreset presetBands at h
  rw [if_pos hp] at h
  unfold lsstPreset at h
  by_cases hu : kw.units.getD "nm" = "nm"
  · rw [if_pos hu] at h
    split at h
    · cases h
    · rename_i pbs d1 h1
      split at h
      · cases h
      · rename_i g' h2
        cases h
        obtain ⟨k1, k2⟩ := loadLsst_spec lsstFilters (fun _ h => h) h1
        refine ⟨?_, k1.2, ?_⟩
        · cases hk : kw.units with
          | none => exact Or.inl rfl
          | some u => rw [hk] at hu; exact Or.inr (congrArg some hu)
        · exact group_of k2 (by rintro f pb ⟨t, _, _, e⟩; exact init_name e)
            (by
              rintro f pb pb' ⟨t, a1, a2, a3⟩ ⟨t', b1, b2, b3⟩
              rw [a1] at b1
              injection b1 with b1
              injection b1 with b1
              cases rows_inj b1
              rw [a3] at b3
              injection b3) h2
  · rw [if_neg hu] at h; cases h

/-- C114. The ZTF preset: exactly g, r and i, made from sncosmo's bandpasses `ztfg`, `ztfr`, `ztfi`, always on a grid of 5 Angstroms and not trimmed. -/
theorem C114_ztf {net : Net K} {registry : Name → Option (List (K × K))} {base : FPath} {d d' : Disk K} {preset : Name} {dir : Option FPath} {filters : Option (List Name)}
    {kw : PresetKw K} {g : PassbandGroup K} (hp : lower preset = "ztf".toList) (h : fromPreset net registry base d preset dir filters kw = .ok (g, d')) :
    d' = d ∧ ∀ n pb, g.passbands.get? n = some pb ↔ ∃ f ∈ ztfFilters, AskedFor filters n f ∧ n = "ZTF".toList ++ "_".toList ++ f ∧
      ∃ t, registry ("ztf".toList ++ f) = some t ∧ Passband.init t "ZTF".toList f (some 5) none "A" = .ok pb := by
  unfold fromPreset presetBands at h
  rw [if_neg (by rw [hp]; decide), if_pos hp] at h
  cases h1 : ztfPreset registry with
  | error e => rw [h1] at h; cases h
  | ok pbs =>
    rw [h1] at h
    dsimp only at h
    cases h2 : PassbandGroup.init pbs filters with
    | error e => rw [h2] at h; cases h
    | ok g' =>
      rw [h2] at h
      cases h
      refine ⟨rfl, ?_⟩
      have hall := mapM_forall₂ _ _ h1
      have hall' : List.Forall₂ (fun f pb => ∃ t, registry ("ztf".toList ++ f) = some t ∧ Passband.init t "ZTF".toList f (some 5) none "A" = .ok pb) ztfFilters pbs := by
        refine hall.imp ?_
        intro f pb hf
        unfold fromSncosmo at hf
        cases hr : registry ("ztf".toList ++ f) with
        | none => rw [hr] at hf; cases hf
        | some t => rw [hr] at hf; exact ⟨t, rfl, hf⟩
      exact group_of hall' (by rintro f pb ⟨t, _, e⟩; exact init_name e)
        (by rintro f pb pb' ⟨t, a1, a2⟩ ⟨t', b1, b2⟩; rw [a1] at b1; cases b1; rw [a2] at b2; injection b2) h2

/-- C114 fails for the ZTF preset with a step or trimming: whatever is asked for is ignored. -/
theorem C114_ztf_counterexample (net : Net K) (registry : Name → Option (List (K × K))) (base : FPath) (d : Disk K) (dir : Option FPath) (filters : Option (List Name))
    (kw : PresetKw K) : fromPreset net registry base d "ZTF".toList dir filters kw = fromPreset net registry base d "ZTF".toList dir filters {} := by
  have hb : ∀ kw : PresetKw K, presetBands net registry base d "ZTF".toList (dir.getD (base.child "passbands".toList)) kw =
      (match ztfPreset registry with
      | .error e => .error e
      | .ok pbs => .ok (pbs, d)) := by
    intro kw
    unfold presetBands
    rw [if_neg (by decide), if_pos (by decide)]
    cases ztfPreset registry <;> rfl
  unfold fromPreset
  rw [hb kw, hb {}]

/-- C114. The Roman preset without `units` and `force_download`: exactly the eight filters, from the columns of one table, whose wavelengths are in microns. -/
theorem C114_roman {net : Net K} {registry : Name → Option (List (K × K))} {base : FPath} {d d' : Disk K} {preset : Name} {dir : Option FPath} {filters : Option (List Name)}
    {kw : PresetKw K} {g : PassbandGroup K} (hp : lower preset = "roman".toList) (h : fromPreset net registry base d preset dir filters kw = .ok (g, d')) :
    kw.units = none ∧ kw.force = none ∧ (∀ l c, d.files.get? l = some c → d'.files.get? l = some c) ∧
    ∃ cols, d'.files.get? (d'.loc (((dir.getD (base.child "passbands".toList)).child "Roman".toList).child "roman_wfi_filters.ecsv".toList)) = some (.csv cols) ∧
    ∀ n pb, g.passbands.get? n = some pb ↔ ∃ f ∈ romanFilters, AskedFor filters n f ∧ n = "Roman".toList ++ "_".toList ++ f ∧
      ∃ waves area, cols.get? "Wave".toList = some waves ∧ cols.get? f = some area ∧
        Passband.init ((waves.map fun w => w * 10000).zip area) "Roman".toList f (kw.delta.getD (some 5)) (kw.trim.getD (some (1 / 1000))) "A" = .ok pb := by
  unfold fromPreset presetBands at h
  rw [if_neg (by rw [hp]; decide), if_neg (by rw [hp]; decide), if_pos hp] at h
  cases h1 : romanPreset net d (dir.getD (base.child "passbands".toList)) kw with
  | error e => rw [h1] at h; cases h
  | ok q =>
    obtain ⟨pbs, d1⟩ := q
    rw [h1] at h
    dsimp only at h
    cases h2 : PassbandGroup.init pbs filters with
    | error e => rw [h2] at h; cases h
    | ok g' =>
      rw [h2] at h
      cases h
      unfold romanPreset at h1
      split at h1
      · rename_i hu
        dsimp only at h1
        split at h1
        · cases h1
        · cases h1
        · rename_i d0 hd
          split at h1
          · rename_i cols hcols
            split at h1
            · cases h1
            · rename_i pbs' hm
              cases h1
              have hall := mapM_forall₂ _ _ hm
              have hone : ∀ {f pb}, romanBand kw cols f = .ok pb → kw.force = none ∧ ∃ waves area, cols.get? "Wave".toList = some waves ∧ cols.get? f = some area ∧
                  Passband.init ((waves.map fun w => w * 10000).zip area) "Roman".toList f (kw.delta.getD (some 5)) (kw.trim.getD (some (1 / 1000))) (kw.units.getD "A") = .ok pb := by
                intro f pb hb
                unfold romanBand at hb
                split at hb
                · rename_i waves area w1 w2
                  split at hb
                  · cases hb
                  · rename_i hf
                    exact ⟨by simpa using hf, waves, area, w1, w2, hb⟩
                · cases hb
              have hfu : kw.force = none ∧ kw.units = none := by
                match pbs, hall with
                | pb :: _, .cons hb _ =>
                  obtain ⟨a1, waves, area, _, _, a2⟩ := hone hb
                  refine ⟨a1, ?_⟩
                  cases hk : kw.units with
                  | none => rfl
                  | some u =>
                    rw [hk] at hu a2
                    simp only [Option.getD] at hu a2
                    subst hu
                    unfold Passband.init at a2
                    split at a2
                    · cases a2
                    · split at a2
                      · cases a2
                      · rename_i hx
                        unfold Passband.toAngstrom at hx
                        simp at hx
              refine ⟨hfu.2, hfu.1, (download_keeps hd).2, cols, hcols, ?_⟩
              have hall' : List.Forall₂ (fun f pb => ∃ waves area, cols.get? "Wave".toList = some waves ∧ cols.get? f = some area ∧
                  Passband.init ((waves.map fun w => w * 10000).zip area) "Roman".toList f (kw.delta.getD (some 5)) (kw.trim.getD (some (1 / 1000))) "A" = .ok pb) romanFilters pbs := by
                refine hall.imp ?_
                intro f pb hf
                have := (hone hf).2
                rw [hfu.2] at this
                exact this
              exact group_of hall' (by rintro f pb ⟨_, _, _, _, e⟩; exact init_name e)
                (by
                  rintro f pb pb' ⟨w, a, a1, a2, a3⟩ ⟨w', a', b1, b2, b3⟩
                  rw [a1] at b1; rw [a2] at b2; cases b1; cases b2; rw [a3] at b3; injection b3) h2
          · cases h1
      · cases h1

/-- C114 fails for the Roman preset with `units="micron"` (the units it says it expects) or with `force_download` of any value: it raises, for every disk and network. -/
theorem C114_roman_counterexample (net : Net K) (registry : Name → Option (List (K × K))) (base : FPath) (d : Disk K) (dir : Option FPath) (filters : Option (List Name))
    (kw : PresetKw K) (h : kw.units = some "micron" ∨ kw.force.isSome = true) : ∃ e, fromPreset net registry base d "Roman".toList dir filters kw = .error e := by
  cases hr : fromPreset net registry base d "Roman".toList dir filters kw with
  | error e => exact ⟨e, rfl⟩
  | ok q =>
    obtain ⟨g, d'⟩ := q
    obtain ⟨h1, h2, _⟩ := C114_roman (by decide) hr
    rcases h with h | h
    · rw [h1] at h; cases h
    · rw [h2] at h; cases h

/-- C114. A filter of the SVO service, given as `{survey}.{filter}`, is read from (or downloaded to) its own file of the table directory, in the units the VOTable
states, and is named after survey and filter. -/
theorem C114_svo {net : Net K} {base : FPath} {d d' : Disk K} {full : Name} {delta trim : Option K} {dir : Option FPath} {force : Bool} {units : String} {pb : Passband K}
    (h : fromSvo net base d full delta trim dir force units = .ok (pb, d')) :
    (∀ l c, d.files.get? l = some c → d'.files.get? l = some c) ∧
    ∃ survey filter c t u, splitAt '.' full = [survey, filter] ∧ pb.fullName = survey ++ "_".toList ++ filter ∧ pb.filterName = filter ∧
      d'.files.get? (d'.loc (((dir.getD (base.child "passbands".toList)).child survey).child (filter ++ ".xml".toList))) = some c ∧
      Holds c (((dir.getD (base.child "passbands".toList)).child survey).child (filter ++ ".xml".toList)).name units t u ∧ Increasing t ∧
      Passband.init t survey filter delta trim u = .ok pb := by
  unfold fromSvo at h
  split at h
  · rename_i survey filter hs
    dsimp only at h
    obtain ⟨c, t, u, e1, e2, e3, e4⟩ := fromFile_init h
    exact ⟨(fromFile_keeps h).2, survey, filter, c, t, u, hs, (init_name e4).1, (init_name e4).2, e1, e2, e3, e4⟩
  · cases h

end

/-! ### When a directory can be read -/

section
variable {K : Type} [Field K] [LinearOrder K] [IsStrictOrderedRing K] [FloorRing K]

theorem normalize_length {t t' : List (K × K)} (h : Passband.normalize t = .ok t') : 2 ≤ t.length ∧ t' ≠ [] := by
  unfold Passband.normalize at h
  split at h
  · cases h
  · rename_i h1
    dsimp only at h
    split at h
    · cases h
    · cases h
      refine ⟨by omega, ?_⟩
      intro e
      have := congrArg List.length e
      simp only [List.length_map, List.length_nil] at this
      omega

theorem trim_length {t t' : List (K × K)} {q : Option K} (h : Passband.trim t q = .ok t') : t'.length ≤ t.length := by
  unfold Passband.trim at h
  cases q with
  | none => cases h; exact le_rfl
  | some q =>
    dsimp only at h
    split at h
    · cases h; exact le_rfl
    · split at h
      · cases h
      · split at h
        · cases h
        · cases hl : (cumTrapezoid t).getLast? with
          | none => rw [hl] at h; cases h
          | some total =>
            rw [hl] at h
            dsimp only at h
            split at h
            · cases h
            · cases h; simp only [List.length_drop, List.length_take]; omega

/-- A passband that could be made has a table, and was made from at least two rows in a known unit. -/
theorem init_rows {t : List (K × K)} {survey filter : Name} {delta trim : Option K} {u : String} {pb : Passband K}
    (h : Passband.init t survey filter delta trim u = .ok pb) : pb.waves ≠ [] ∧ 2 ≤ t.length ∧ (u = "nm" ∨ u = "A") := by
  unfold Passband.init at h
  cases h1 : Passband.validate t with
  | error e => rw [h1] at h; cases h
  | ok t0 =>
    rw [h1] at h
    dsimp only at h
    have e0 : t0 = t := by
      unfold Passband.validate at h1
      split at h1
      · cases h1
      · split at h1
        · cases h1
        · cases h1; rfl
    subst e0
    cases h2 : Passband.toAngstrom t0 u with
    | error e => rw [h2] at h; cases h
    | ok t1 =>
      rw [h2] at h
      dsimp only at h
      have e1 : t1.length = t0.length ∧ (u = "nm" ∨ u = "A") := by
        unfold Passband.toAngstrom at h2
        split at h2
        · rename_i hu; cases h2; exact ⟨by simp, Or.inl hu⟩
        · split at h2
          · rename_i hu; cases h2; exact ⟨rfl, Or.inr hu⟩
          · cases h2
      cases h3 : Passband.process t1 delta trim with
      | error e => rw [h3] at h; cases h
      | ok t2 =>
        rw [h3] at h
        cases h
        unfold Passband.process at h3
        cases h4 : Passband.interpolate t1 delta with
        | error e => rw [h4] at h3; cases h3
        | ok t3 =>
          rw [h4] at h3
          dsimp only at h3
          cases h5 : Passband.trim t3 trim with
          | error e => rw [h5] at h3; cases h3
          | ok t4 =>
            rw [h5] at h3
            dsimp only at h3
            obtain ⟨k1, k2⟩ := normalize_length h3
            have k3 := trim_length h5
            refine ⟨by simpa using k2, ?_, e1.2⟩
            by_contra hlt
            have hl : t1.length ≤ 1 := by omega
            have : t3 = t1 := by
              have hd : npDiff (t1.map (·.1)) = [] := by
                match t1, hl with
                | [], _ => rfl
                | [_], _ => rfl
              unfold Passband.interpolate at h4
              cases delta with
              | none => cases h4; rfl
              | some dl =>
                dsimp only at h4
                rw [hd] at h4
                simp only [List.all_nil, if_true] at h4
                injection h4 with h4
                exact h4.symm
            subst this
            omega

theorem indexAll_ok (waves : List K) : ∀ (d : Dict Name (Passband K)), (∀ p ∈ d, p.2.waves ≠ []) → ∃ m, PassbandGroup.indexAll waves d = .ok m
  | [], _ => ⟨_, rfl⟩
  | (n, pb) :: rest, h => by
    obtain ⟨m, hm⟩ := indexAll_ok waves rest (fun p hp => h p (by simp [hp]))
    have hne := h (n, pb) (by simp)
    unfold PassbandGroup.indexAll
    have : ∃ i, PassbandGroup.indexOf waves pb.waves = .ok i := by
      unfold PassbandGroup.indexOf
      dsimp only at hne
      cases hw : pb.waves with
      | nil => exact absurd hw hne
      | cons x l =>
        rw [List.head?_cons, List.getLast?_eq_some_getLast (by simp)]
        dsimp only
        split <;> exact ⟨_, rfl⟩
    obtain ⟨i, hi⟩ := this
    rw [hi, hm]
    exact ⟨_, rfl⟩

theorem mem_set_of {κ ν : Type} [DecidableEq κ] {k : κ} {v : ν} {p : κ × ν} : ∀ (d : Dict κ ν), p ∈ d.set k v → p ∈ d ∨ p = (k, v)
  | [], h => by
    simp only [Dict.set, List.mem_cons, List.not_mem_nil, or_false] at h
    exact Or.inr h
  | q :: d, h => by
    unfold Dict.set at h
    split at h
    · rename_i hk
      rcases List.mem_cons.1 h with h | h
      · rw [hk] at h; exact Or.inr h
      · exact Or.inl (by simp [h])
    · rcases List.mem_cons.1 h with h | h
      · exact Or.inl (by simp [h])
      · rcases mem_set_of d h with h | h
        · exact Or.inl (by simp [h])
        · exact Or.inr h

theorem store_mem {n : Name} {pb : Passband K} : ∀ (given : List (Passband K)) (d : Dict Name (Passband K)),
    (n, pb) ∈ given.foldl (fun (d : Dict Name (Passband K)) pb => Dict.set d pb.fullName pb) d → pb ∈ given ∨ (n, pb) ∈ d
  | [], d, h => Or.inr h
  | q :: given, d, h => by
    rcases store_mem given _ h with h | h
    · exact Or.inl (by simp [h])
    · rcases mem_set_of _ h with h | h
      · exact Or.inr h
      · cases h; exact Or.inl (by simp)

/-- A group of passbands that have a grid can be made. -/
theorem group_ok {pbs : List (Passband K)} (hne : pbs ≠ []) (hw : ∀ pb ∈ pbs, pb.waves ≠ []) : ∃ g, PassbandGroup.init pbs none = .ok g := by
  unfold PassbandGroup.init
  rw [if_neg hne]
  dsimp only [PassbandGroup.prune]
  rw [if_neg (by simp)]
  unfold PassbandGroup.update
  dsimp only
  obtain ⟨m, hm⟩ := indexAll_ok (PassbandGroup.gridOf (1 / 10 ^ 5) (PassbandGroup.store pbs)) (PassbandGroup.store pbs) (by
    rintro ⟨n, pb⟩ hp
    rcases store_mem pbs [] hp with h | h
    · exact hw pb h
    · cases h)
  rw [hm]
  exact ⟨_, rfl⟩

theorem dirAll_ok {net : Net K} {base : FPath} {d : Disk K} {dir : FPath} (habs : dir.abs = true) {delta trim : Option K} {units : String} :
    ∀ (es : List Name), (∀ e ∈ es, ∃ pb, OfFile d dir delta trim units e pb) →
      ∃ pbs, loadAll net base {} d (es.map (dirParams dir delta trim units)) = .ok (pbs, d) ∧ pbs.length = es.length ∧ ∀ pb ∈ pbs, pb.waves ≠ []
  | [], _ => ⟨[], rfl, rfl, by simp⟩
  | e :: es, h => by
    obtain ⟨pbs, h1, h2, h3⟩ := dirAll_ok (net := net) (base := base) habs es (fun e he => h e (by simp [he]))
    obtain ⟨pb, c, t, u, e1, e2, e3, e4⟩ := h e (by simp)
    obtain ⟨k1, k2, k3⟩ := init_rows e4
    refine ⟨pb :: pbs, ?_, by simp [h2], ?_⟩
    · have hp : (dir.join (FPath.mk dir.abs (dir.parts ++ [e]))) = FPath.mk dir.abs (dir.parts ++ [e]) := by
        unfold FPath.join; rw [if_pos habs]
      have hl : fromParams net base d (PbParams.fill { survey := some dir.name, filter := some (stem e), delta := some delta, trim := some trim, path := some (some (dir.join (FPath.mk dir.abs (dir.parts ++ [e])))), units := some units } {}) = .ok (pb, d) := by
        rw [hp]
        refine (C111_from_file net base d dir.name (stem e) { delta := delta, trim := trim, path := some (FPath.mk dir.abs (dir.parts ++ [e])), url := none, units := units, force := false } (c := c) (t := t) (u := u) rfl e1 ?_ k2 k3 e3).trans ?_
        · dsimp only [tablePath]; rw [name_snoc]; exact e2
        · dsimp only
          rw [e4]
          rfl
      rw [List.map_cons]
      unfold dirParams loadAll
      rw [hl]
      dsimp only
      unfold dirParams at h1
      rw [h1]
    · intro q hq
      rcases List.mem_cons.1 hq with rfl | hq
      · exact k1
      · exact h3 q hq

/-- C113. Reading a directory given by an absolute path succeeds whenever it has a file and each of its files can be read. -/
theorem C113_succeeds_partial (net : Net K) (base : FPath) (d : Disk K) (dir : FPath) (entries : List Name) (delta trim : Option K) (units : String)
    (habs : dir.abs = true) (hsome : ∃ e ∈ entries, Chosen d dir none e)
    (hall : ∀ e ∈ entries, Chosen d dir none e → ∃ pb, OfFile d dir delta trim units e pb) :
    ∃ g, fromDir net base d dir (some entries) none delta trim units = .ok (g, d) := by
  unfold fromDir
  dsimp only
  have hmem : ∀ e, e ∈ entries.filter (wanted d dir none) ↔ e ∈ entries ∧ Chosen d dir none e := by
    intro e
    rw [List.mem_filter]
    unfold Chosen wanted
    rw [Bool.and_eq_true]
    simp
  obtain ⟨pbs, h1, h2, h3⟩ := dirAll_ok (net := net) (base := base) (delta := delta) (trim := trim) (units := units) (d := d) habs (entries.filter (wanted d dir none))
    (fun e he => hall e ((hmem e).1 he).1 ((hmem e).1 he).2)
  obtain ⟨e, he, hc⟩ := hsome
  have hpos := List.length_pos_of_mem ((hmem e).2 ⟨he, hc⟩)
  obtain ⟨g, hg⟩ := group_ok (pbs := pbs) (by rintro rfl; simp at h2; omega) h3
  unfold groupInit
  rw [if_neg (by simp only [List.isEmpty_iff, List.map_eq_nil_iff]; intro e; rw [e] at hpos; simp at hpos), h1]
  dsimp only
  rw [hg]
  exact ⟨g, rfl⟩

end

/-! ### Concrete directories -/

/-- A directory with two passband files and a hidden file. -/
def dirDisk : Disk ℚ :=
  ⟨[(["bands".toList, "g.dat".toList], .text [[40, 0], [50, 1], [60, 0]]), (["bands".toList, "r.txt".toList], .text [[60, 0], [70, 2], [80, 0]])], []⟩

example : splitAt '.' "SLOAN/SDSS.u".toList = ["SLOAN/SDSS".toList, "u".toList] := by decide

example : stem "g.dat".toList = "g".toList ∧ suffix "g.dat".toList = ".dat".toList ∧ stem ".hidden".toList = ".hidden".toList := by decide

/-- Its files. -/
theorem dirDisk_files : ∀ e ∈ ["g.dat".toList, "r.txt".toList], ∃ pb, OfFile dirDisk ⟨true, ["bands".toList]⟩ none none "nm" e pb := by
  intro e he
  simp only [List.mem_cons, List.not_mem_nil, or_false] at he
  rcases he with rfl | rfl
  · have : ((Passband.init [((40 : ℚ), 0), (50, 1), (60, 0)] "bands".toList "g".toList none none "nm").map (·.loaded)).isOk = true := by decide +kernel
    cases h : Passband.init [((40 : ℚ), 0), (50, 1), (60, 0)] "bands".toList "g".toList none none "nm" with
    | error e => rw [h] at this; cases this
    | ok pb => exact ⟨pb, .text [[40, 0], [50, 1], [60, 0]], _, _, rfl, Or.inl ⟨by unfold AsciiName; decide, rfl, rfl⟩, by unfold Increasing; decide +kernel, h⟩
  · have : ((Passband.init [((60 : ℚ), 0), (70, 2), (80, 0)] "bands".toList "r".toList none none "nm").map (·.loaded)).isOk = true := by decide +kernel
    cases h : Passband.init [((60 : ℚ), 0), (70, 2), (80, 0)] "bands".toList "r".toList none none "nm" with
    | error e => rw [h] at this; cases this
    | ok pb => exact ⟨pb, .text [[60, 0], [70, 2], [80, 0]], _, _, rfl, Or.inl ⟨by unfold AsciiName; decide, rfl, rfl⟩, by unfold Increasing; decide +kernel, h⟩

/-- Reading the directory by its absolute path gives the passbands of both files, in whatever order they are listed. -/
example : ∃ g, fromDir (fun _ => none) ⟨true, []⟩ dirDisk ⟨true, ["bands".toList]⟩ (some ["g.dat".toList, "r.txt".toList]) none none none "nm" = .ok (g, dirDisk) ∧
    ∃ pb, g.passbands.get? "bands_r".toList = some pb ∧ OfFile dirDisk ⟨true, ["bands".toList]⟩ none none "nm" "r.txt".toList pb := by
  obtain ⟨g, hg⟩ := C113_succeeds_partial (fun _ => none) ⟨true, []⟩ dirDisk ⟨true, ["bands".toList]⟩ ["g.dat".toList, "r.txt".toList] none none "nm" rfl
    ⟨"g.dat".toList, by simp, by unfold Chosen; exact ⟨rfl, by simp⟩⟩ (fun e he _ => dirDisk_files e he)
  obtain ⟨pb, hpb⟩ := dirDisk_files "r.txt".toList (by simp)
  refine ⟨g, hg, pb, ((C113_from_dir_partial rfl ?_ hg).2 _ _).2 ⟨"r.txt".toList, by simp, by unfold Chosen; exact ⟨rfl, by simp⟩, by decide, hpb⟩, hpb⟩
  intro e he e' he' _ _
  simp only [List.mem_cons, List.not_mem_nil, or_false] at he he'
  rcases he with rfl | rfl <;> rcases he' with rfl | rfl <;> decide

/-- A directory with two files for one filter. -/
def twinDisk : Disk ℚ :=
  ⟨[(["bands".toList, "g.dat".toList], .text [[40, 0], [50, 1], [60, 0]]), (["bands".toList, "g.txt".toList], .text [[60, 0], [70, 2], [80, 0]])], []⟩

theorem twinDisk_files : (∃ pb, OfFile twinDisk ⟨true, ["bands".toList]⟩ none none "nm" "g.dat".toList pb ∧ pb.loaded = [(400, 0), (500, 1), (600, 0)]) ∧
    ∃ pb, OfFile twinDisk ⟨true, ["bands".toList]⟩ none none "nm" "g.txt".toList pb ∧ pb.loaded = [(600, 0), (700, 2), (800, 0)] := by
  constructor
  · have : (Passband.init [((40 : ℚ), 0), (50, 1), (60, 0)] "bands".toList "g".toList none none "nm").map (·.loaded) = .ok [(400, 0), (500, 1), (600, 0)] := by decide +kernel
    cases h : Passband.init [((40 : ℚ), 0), (50, 1), (60, 0)] "bands".toList "g".toList none none "nm" with
    | error e => rw [h] at this; cases this
    | ok pb =>
      rw [h] at this
      exact ⟨pb, ⟨.text [[40, 0], [50, 1], [60, 0]], _, _, rfl, Or.inl ⟨by unfold AsciiName; decide, rfl, rfl⟩, by unfold Increasing; decide +kernel, h⟩, by injection this⟩
  · have : (Passband.init [((60 : ℚ), 0), (70, 2), (80, 0)] "bands".toList "g".toList none none "nm").map (·.loaded) = .ok [(600, 0), (700, 2), (800, 0)] := by decide +kernel
    cases h : Passband.init [((60 : ℚ), 0), (70, 2), (80, 0)] "bands".toList "g".toList none none "nm" with
    | error e => rw [h] at this; cases this
    | ok pb =>
      rw [h] at this
      exact ⟨pb, ⟨.text [[60, 0], [70, 2], [80, 0]], _, _, rfl, Or.inl ⟨by unfold AsciiName; decide, rfl, rfl⟩, by unfold Increasing; decide +kernel, h⟩, by injection this⟩

/-- With g.dat beside g.txt, which of them the group holds depends on the order of the listing. -/
example : ∃ g1 g2 pb1 pb2, fromDir (fun _ => none) ⟨true, []⟩ twinDisk ⟨true, ["bands".toList]⟩ (some ["g.dat".toList, "g.txt".toList]) none none none "nm" = .ok (g1, twinDisk) ∧
    fromDir (fun _ => none) ⟨true, []⟩ twinDisk ⟨true, ["bands".toList]⟩ (some ["g.txt".toList, "g.dat".toList]) none none none "nm" = .ok (g2, twinDisk) ∧
    g1.passbands.get? "bands_g".toList = some pb2 ∧ g2.passbands.get? "bands_g".toList = some pb1 ∧ pb1 ≠ pb2 := by
  obtain ⟨⟨pb1, ho1, hl1⟩, ⟨pb2, ho2, hl2⟩⟩ := twinDisk_files
  have hc : ∀ e ∈ ["g.dat".toList, "g.txt".toList], ∃ pb, OfFile twinDisk ⟨true, ["bands".toList]⟩ none none "nm" e pb := by
    intro e he
    simp only [List.mem_cons, List.not_mem_nil, or_false] at he
    rcases he with rfl | rfl
    · exact ⟨pb1, ho1⟩
    · exact ⟨pb2, ho2⟩
  obtain ⟨g1, hg1⟩ := C113_succeeds_partial (fun _ => none) ⟨true, []⟩ twinDisk ⟨true, ["bands".toList]⟩ ["g.dat".toList, "g.txt".toList] none none "nm" rfl
    ⟨"g.dat".toList, by simp, by unfold Chosen; exact ⟨rfl, by simp⟩⟩ (fun e he _ => hc e he)
  obtain ⟨g2, hg2⟩ := C113_succeeds_partial (fun _ => none) ⟨true, []⟩ twinDisk ⟨true, ["bands".toList]⟩ ["g.txt".toList, "g.dat".toList] none none "nm" rfl
    ⟨"g.dat".toList, by simp, by unfold Chosen; exact ⟨rfl, by simp⟩⟩ (fun e he _ => hc e (by simp at he ⊢; tauto))
  have := C113_same_stem_counterexample rfl (by decide) ⟨rfl, rfl⟩ ho1 ho2 hg1 hg2
  refine ⟨g1, g2, pb1, pb2, hg1, hg2, this.1, this.2, ?_⟩
  rintro rfl
  rw [hl1] at hl2
  exact absurd hl2 (by decide +kernel)

/-- Reading it by its path relative to the current directory, the root. -/
example : fromDir (fun _ => none) ⟨true, []⟩ dirDisk ⟨false, ["bands".toList]⟩ (some ["g.dat".toList, "r.txt".toList]) none none none "nm" = .error .valueError :=
  C113_relative_counterexample _ _ _ _ _ _ _ _ _ rfl (e := "g.dat".toList) (by decide) (by decide)

end LCL.PbFilesProps
