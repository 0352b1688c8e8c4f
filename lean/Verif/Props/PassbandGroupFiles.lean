import Verif.Props.PassbandFiles

/-!
# Properties C113 (directories of passbands), C114 (presets) and C115 (passbands given by parameters)
-/

namespace LCL.PbFilesProps
open LCL LCL.PbFiles LCL.PbFilesSpec
variable {K : Type} [Field K] [LinearOrder K] [IsStrictOrderedRing K] [FloorRing K]

/-- A download never changes a file that exists. -/
theorem download_keeps {net : Net K} {d d' : Disk K} {p : FPath} {url : Option Name} {force b : Bool} (h : download net d p url force = .ok (b, d')) :
    d'.cwd = d.cwd ∧ ∀ l c, d.files.get? l = some c → d'.files.get? l = some c := by
  by_cases hp : d.has p = true
  · unfold download at h
    split at h
    · cases h; exact ⟨rfl, fun _ _ h => h⟩
    · split at h
      · cases h
      · cases h
      · rename_i u _ _
        unfold retrieve at h
        rw [if_pos hp] at h
        cases h; exact ⟨rfl, fun _ _ h => h⟩
  · have hp' : d.has p = false := by simpa using hp
    obtain ⟨_, e1, e2, _⟩ := (C112_fetch net d p url force hp').1 b d' h
    refine ⟨e1, fun l c hl => ?_⟩
    rw [e2 l (by rintro rfl; exact hp ((has_iff_get _ _).2 ⟨c, hl⟩))]
    exact hl

theorem fromFile_keeps {net : Net K} {base : FPath} {d d' : Disk K} {survey filter : Name} {a : FileArgs K} {pb : Passband K}
    (h : fromFile net base d survey filter a = .ok (pb, d')) : d'.cwd = d.cwd ∧ ∀ l c, d.files.get? l = some c → d'.files.get? l = some c := by
  unfold fromFile at h
  dsimp only at h
  cases hd : download net d (tablePath base survey filter a.path) a.url a.force with
  | error e => rw [hd] at h; cases h
  | ok bd =>
    obtain ⟨b, d1⟩ := bd
    rw [hd] at h
    cases b with
    | false => cases h
    | true =>
      dsimp only at h
      split at h
      · cases h
      · split at h
        · cases h
        · cases h; exact download_keeps hd

/-- What a passband given by parameters is: its own parameters, the group's for those it does not give, the defaults for the rest. -/
def Loads (base : FPath) (d : Disk K) (p kw : PbParams K) (pb : Passband K) : Prop :=
  ∃ survey filter c t u, (p.survey <|> kw.survey) = some survey ∧ (p.filter <|> kw.filter) = some filter ∧
    pb.fullName = survey ++ "_".toList ++ filter ∧ pb.filterName = filter ∧ pb.deltaWave = (p.delta <|> kw.delta).getD (some 5) ∧
    d.files.get? (d.loc (tablePath base survey filter ((p.path <|> kw.path).getD none))) = some c ∧
    Holds c (tablePath base survey filter ((p.path <|> kw.path).getD none)).name ((p.units <|> kw.units).getD "A") t u ∧
    Increasing t ∧ Passband.init t survey filter ((p.delta <|> kw.delta).getD (some 5)) ((p.trim <|> kw.trim).getD (some (1 / 1000))) u = .ok pb

theorem loads_mono {base : FPath} {d d' : Disk K} {p kw : PbParams K} {pb : Passband K} (h : Loads base d p kw pb)
    (hd : d'.cwd = d.cwd ∧ ∀ l c, d.files.get? l = some c → d'.files.get? l = some c) : Loads base d' p kw pb := by
  obtain ⟨survey, filter, c, t, u, h1, h2, h3, h4, h5, h6, h7, h8, h9⟩ := h
  refine ⟨survey, filter, c, t, u, h1, h2, h3, h4, h5, ?_, h7, h8, h9⟩
  have : ∀ q, d'.loc q = d.loc q := by intro q; unfold Disk.loc; rw [hd.1]
  rw [this]
  exact hd.2 _ _ h6

theorem init_units {t : List (K × K)} {survey filter : Name} {delta trim : Option K} {u : String} (hu : u = "nm" ∨ u = "A") (hinc : Increasing t) :
    Passband.init (inAngstrom u t) survey filter delta trim "A" = Passband.init t survey filter delta trim u := by
  unfold Passband.init
  rw [validate_eq, validate_eq]
  have k1 : increasing (inAngstrom u t) = .ok (inAngstrom u t) := by
    rcases increasing_spec (inAngstrom u t) with ⟨e1, _⟩ | ⟨_, e⟩
    · exact e1
    · exact absurd ((inAngstrom_increasing u t).2 hinc) e
  have k2 : increasing t = .ok t := by
    rcases increasing_spec t with ⟨e1, _⟩ | ⟨_, e⟩
    · exact e1
    · exact absurd hinc e
  rw [k1, k2]
  dsimp only
  have k3 : Passband.toAngstrom (inAngstrom u t) "A" = .ok (inAngstrom u t) := by simp [Passband.toAngstrom]
  have k4 : Passband.toAngstrom t u = .ok (inAngstrom u t) := convert_eq hu
  rw [k3, k4]

theorem fromFile_init {net : Net K} {base : FPath} {d d' : Disk K} {survey filter : Name} {a : FileArgs K} {pb : Passband K}
    (h : fromFile net base d survey filter a = .ok (pb, d')) :
    ∃ c t u, d'.files.get? (d'.loc (tablePath base survey filter a.path)) = some c ∧ Holds c (tablePath base survey filter a.path).name a.units t u ∧
      Increasing t ∧ Passband.init t survey filter a.delta a.trim u = .ok pb := by
  unfold fromFile at h
  dsimp only at h
  cases hd : download net d (tablePath base survey filter a.path) a.url a.force with
  | error e => rw [hd] at h; cases h
  | ok bd =>
    obtain ⟨b, d1⟩ := bd
    rw [hd] at h
    cases b with
    | false => cases h
    | true =>
      dsimp only at h
      cases hl : loadTable d1 (tablePath base survey filter a.path) a.units with
      | error e => rw [hl] at h; cases h
      | ok t1 =>
        rw [hl] at h; dsimp only at h
        cases hi : Passband.init t1 survey filter a.delta a.trim "A" with
        | error e => rw [hi] at h; cases h
        | ok pb' =>
          rw [hi] at h
          cases h
          obtain ⟨c, t, u, e1, e2, _, _, e3, e4, rfl⟩ := (C111_load _ _ _ _).1 hl
          rw [init_units e3 e4] at hi
          exact ⟨c, t, u, e1, e2, e4, hi⟩

theorem fromParams_loads {net : Net K} {base : FPath} {d d' : Disk K} {p kw : PbParams K} {pb : Passband K}
    (h : fromParams net base d (p.fill kw) = .ok (pb, d')) : Loads base d' p kw pb ∧ d'.cwd = d.cwd ∧ ∀ l c, d.files.get? l = some c → d'.files.get? l = some c := by
  unfold fromParams at h
  cases hs : (p.fill kw).survey with
  | none => rw [hs] at h; cases h
  | some survey =>
    cases hf : (p.fill kw).filter with
    | none => rw [hs, hf] at h; cases h
    | some filter =>
      rw [hs, hf] at h
      dsimp only at h
      obtain ⟨s1, s2, s3, _⟩ := C111_sound h
      obtain ⟨c, t, u, e1, e2, e3, e4⟩ := fromFile_init h
      exact ⟨⟨survey, filter, c, t, u, hs, hf, s1, s2, s3, e1, e2, e3, e4⟩, fromFile_keeps h⟩

theorem loadAll_spec {net : Net K} {base : FPath} {kw : PbParams K} : ∀ (given : List (Given K)) {d d' : Disk K} {pbs : List (Passband K)},
    loadAll net base kw d given = .ok (pbs, d') → pbs.length = given.length ∧ (d'.cwd = d.cwd ∧ ∀ l c, d.files.get? l = some c → d'.files.get? l = some c) ∧
      ∀ (i : Nat) g pb, given[i]? = some g → pbs[i]? = some pb → match g with | .obj pb' => pb = pb' | .params p => Loads base d' p kw pb
  | [], d, d', pbs, h => by cases h; exact ⟨rfl, ⟨rfl, fun _ _ h => h⟩, by intro i g pb h; simp at h⟩
  | .obj pb0 :: l, d, d', pbs, h => by
    unfold loadAll at h
    cases h1 : loadAll net base kw d l with
    | error e => rw [h1] at h; cases h
    | ok q =>
      obtain ⟨pbs1, d1⟩ := q
      rw [h1] at h
      cases h
      obtain ⟨a1, a2, a3⟩ := loadAll_spec l h1
      refine ⟨by simp [a1], a2, ?_⟩
      intro i g pb hg hp
      cases i with
      | zero => simp at hg hp; subst hg; exact hp.symm
      | succ i => exact a3 i g pb (by simpa using hg) (by simpa using hp)
  | .params p :: l, d, d', pbs, h => by
    unfold loadAll at h
    cases h0 : fromParams net base d (p.fill kw) with
    | error e => rw [h0] at h; cases h
    | ok q0 =>
      obtain ⟨pb0, d0⟩ := q0
      rw [h0] at h
      dsimp only at h
      cases h1 : loadAll net base kw d0 l with
      | error e => rw [h1] at h; cases h
      | ok q =>
        obtain ⟨pbs1, d1⟩ := q
        rw [h1] at h
        cases h
        obtain ⟨b1, b2, b3⟩ := fromParams_loads h0
        obtain ⟨a1, a2, a3⟩ := loadAll_spec l h1
        refine ⟨by simp [a1], ⟨a2.1.trans b2, fun l c hc => a2.2 l c (b3 l c hc)⟩, ?_⟩
        intro i g pb hg hp
        cases i with
        | zero => simp at hg hp; subst hg; subst hp; exact loads_mono b1 a2
        | succ i => exact a3 i g pb (by simpa using hg) (by simpa using hp)

/-- C115. A group built from passbands and parameter dictionaries contains, for every given one (in order, and the last one for equal full names), the passband object
itself, or the passband loaded with the dictionary's own parameters, the group's keyword arguments for those missing, and the defaults for the rest; existing files are
not changed. -/
theorem C115_group {net : Net K} {base : FPath} {d d' : Disk K} {given : List (Given K)} {kw : PbParams K} {g : PassbandGroup K}
    (h : groupInit net base d given none kw = .ok (g, d')) :
    (∀ l c, d.files.get? l = some c → d'.files.get? l = some c) ∧
    ∃ pbs : List (Passband K), pbs.length = given.length ∧
      (∀ (i : Nat) pb pb', given[i]? = some (.obj pb) → pbs[i]? = some pb' → pb' = pb) ∧
      (∀ (i : Nat) p pb, given[i]? = some (.params p) → pbs[i]? = some pb → Loads base d' p kw pb) ∧
      ∀ n, g.passbands.get? n = pbs.reverse.find? (fun pb => decide (pb.fullName = n)) := by
  unfold groupInit at h
  split at h
  · cases h
  · cases h1 : loadAll net base kw d given with
    | error e => rw [h1] at h; cases h
    | ok q =>
      obtain ⟨pbs, d1⟩ := q
      rw [h1] at h
      dsimp only at h
      cases h2 : PassbandGroup.init pbs none with
      | error e => rw [h2] at h; cases h
      | ok g' =>
        rw [h2] at h
        cases h
        obtain ⟨a1, a2, a3⟩ := loadAll_spec given h1
        exact ⟨a2.2, pbs, a1, fun i pb pb' e1 e2 => a3 i _ pb' e1 e2, fun i p pb e1 e2 => a3 i _ pb e1 e2,
          fun n => (PassbandGroupProps.C64_filters_partial pbs []).2.2 g h2 n⟩

/-! ### Directories -/

/-- The entry is one of the files asked for. -/
def Chosen (d : Disk K) (dir : FPath) (filters : Option (List Name)) (e : Name) : Prop :=
  d.has ⟨dir.abs, dir.parts ++ [e]⟩ = true ∧ ∀ fs, filters = some fs → stem e ∈ fs

/-- The passband of the file `e` of the directory. -/
def OfFile (d : Disk K) (dir : FPath) (delta trim : Option K) (units : String) (e : Name) (pb : Passband K) : Prop :=
  ∃ c t u, d.files.get? (d.loc ⟨dir.abs, dir.parts ++ [e]⟩) = some c ∧ Holds c e units t u ∧ Increasing t ∧
    Passband.init t dir.name (stem e) delta trim u = .ok pb

theorem init_name {t : List (K × K)} {survey filter : Name} {delta trim : Option K} {u : String} {pb : Passband K}
    (h : Passband.init t survey filter delta trim u = .ok pb) : pb.fullName = survey ++ "_".toList ++ filter ∧ pb.filterName = filter := by
  unfold Passband.init at h
  split at h
  · cases h
  · split at h
    · cases h
    · split at h
      · cases h
      · cases h; exact ⟨by simp, rfl⟩

theorem name_snoc (a : Bool) (l : List Name) (e : Name) : (FPath.mk a (l ++ [e])).name = e := by
  unfold FPath.name
  simp [List.getLastD_eq_getLast?]

theorem dirOne {net : Net K} {base : FPath} {d d' : Disk K} {dir : FPath} (habs : dir.abs = true) {delta trim : Option K} {units : String} {e : Name} {pb : Passband K}
    (hhas : d.has ⟨dir.abs, dir.parts ++ [e]⟩ = true)
    (h : fromParams net base d (PbParams.fill { survey := some dir.name, filter := some (stem e), delta := some delta, trim := some trim, path := some (some (dir.join (FPath.mk dir.abs (dir.parts ++ [e])))), units := some units } {}) = .ok (pb, d')) :
    d' = d ∧ OfFile d dir delta trim units e pb := by
  have hj : dir.join (FPath.mk dir.abs (dir.parts ++ [e])) = FPath.mk dir.abs (dir.parts ++ [e]) := by
    unfold FPath.join
    rw [if_pos habs]
  rw [hj] at h
  unfold fromParams PbParams.fill at h
  dsimp only [Option.getD, HOrElse.hOrElse, OrElse.orElse, Option.orElse] at h
  have hk : d' = d := by
    unfold fromFile at h
    dsimp only [tablePath] at h
    rw [C112_offline _ _ _ _ hhas] at h
    dsimp only at h
    split at h
    · cases h
    · split at h
      · cases h
      · cases h; rfl
  subst hk
  obtain ⟨c, t, u, e1, e2, e3, e4⟩ := fromFile_init h
  dsimp only [tablePath] at e1 e2
  rw [name_snoc] at e2
  exact ⟨rfl, c, t, u, e1, e2, e3, e4⟩

theorem dirAll {net : Net K} {base : FPath} {d : Disk K} {dir : FPath} (habs : dir.abs = true) {delta trim : Option K} {units : String} :
    ∀ (es : List Name) {d' : Disk K} {pbs : List (Passband K)}, (∀ e ∈ es, d.has ⟨dir.abs, dir.parts ++ [e]⟩ = true) →
    loadAll net base {} d (es.map (dirParams dir delta trim units)) = .ok (pbs, d') →
    d' = d ∧ List.Forall₂ (OfFile d dir delta trim units) es pbs
  | [], d', pbs, _, h => by cases h; exact ⟨rfl, .nil⟩
  | e :: es, d', pbs, hh, h => by
    rw [List.map_cons] at h
    unfold dirParams at h
    unfold loadAll at h
    split at h
    · cases h
    · rename_i pb0 d0 h0
      obtain ⟨rfl, ho⟩ := dirOne habs (hh e (by simp)) h0
      split at h
      · cases h
      · rename_i pbs1 d1 h1
        cases h
        obtain ⟨rfl, hall⟩ := dirAll habs es (fun e he => hh e (by simp [he])) h1
        exact ⟨rfl, .cons ho hall⟩

theorem ofFile_det {d : Disk K} {dir : FPath} {delta trim : Option K} {units : String} {e : Name} {pb pb' : Passband K}
    (h1 : OfFile d dir delta trim units e pb) (h2 : OfFile d dir delta trim units e pb') : pb = pb' := by
  obtain ⟨c, t, u, e1, e2, e3, e4⟩ := h1
  obtain ⟨c', t', u', f1, f2, f3, f4⟩ := h2
  rw [e1] at f1
  cases f1
  have : t = t' ∧ u = u' := by
    have hr : ∀ {t t' : List (K × K)}, rowsOf t = rowsOf t' → t = t' := by
      intro t t' h
      have := congrArg (fun l => l.mapM toPair) h
      simpa [mapM_toPair] using this
    rcases e2 with ⟨a1, a2, a3⟩ | ⟨a1, w, v, a2, a3, a4⟩ <;> rcases f2 with ⟨b1, b2, b3⟩ | ⟨b1, w', v', b2, b3, b4⟩
    · rw [a2] at b2; exact ⟨hr (by injection b2), a3.trans b3.symm⟩
    · exact absurd b1 (fun h => not_both a1 h)
    · exact absurd a1 (fun h => not_both b1 h)
    · rw [a2] at b2
      injection b2 with k1 k2
      simp only [List.cons.injEq, and_true] at k1
      obtain ⟨rfl, rfl⟩ := k1
      refine ⟨hr k2, ?_⟩
      have := ((votUnit_iff _ _).2 a4).symm.trans ((votUnit_iff _ _).2 b4)
      injection this
  obtain ⟨rfl, rfl⟩ := this
  rw [e4] at f4
  injection f4

/-- C113. A group read from a directory (given by an absolute path) holds exactly the passbands of the directory's files (of the filters asked for), each named after
the directory and its file and made from its file's table, and no file changes; so the order in which the directory is listed does not matter. Proved for files with
distinct stems; relative paths and files like g.dat beside g.txt are the counterexamples. -/
theorem C113_from_dir_partial {net : Net K} {base : FPath} {d d' : Disk K} {dir : FPath} {entries : List Name} {filters : Option (List Name)} {delta trim : Option K}
    {units : String} {g : PassbandGroup K} (habs : dir.abs = true)
    (hstem : ∀ e ∈ entries, ∀ e' ∈ entries, Chosen d dir filters e → Chosen d dir filters e' → stem e = stem e' → e = e')
    (h : fromDir net base d dir (some entries) filters delta trim units = .ok (g, d')) :
    d' = d ∧ ∀ n pb, g.passbands.get? n = some pb ↔
      ∃ e ∈ entries, Chosen d dir filters e ∧ n = dir.name ++ "_".toList ++ stem e ∧ OfFile d dir delta trim units e pb := by
  unfold fromDir at h
  dsimp only at h
  generalize hes : (entries.filter (wanted d dir filters)) = es at h
  have hmem : ∀ e, e ∈ es ↔ e ∈ entries ∧ Chosen d dir filters e := by
    intro e
    rw [← hes, List.mem_filter]
    unfold Chosen wanted
    rw [Bool.and_eq_true]
    cases filters with
    | none => simp
    | some fs => simp
  unfold groupInit at h
  split at h
  · cases h
  · cases h1 : loadAll net base {} d (es.map (dirParams dir delta trim units)) with
    | error e => rw [h1] at h; cases h
    | ok q =>
      obtain ⟨pbs, d1⟩ := q
      rw [h1] at h
      dsimp only at h
      cases h2 : PassbandGroup.init pbs filters with
      | error e => rw [h2] at h; cases h
      | ok g' =>
        rw [h2] at h
        cases h
        obtain ⟨rfl, hall⟩ := dirAll habs es (fun e he => ((hmem e).1 he).2.1) h1
        refine ⟨rfl, ?_⟩
        have hfull : ∀ {e pb}, OfFile d' dir delta trim units e pb → pb.fullName = dir.name ++ "_".toList ++ stem e ∧ pb.filterName = stem e := by
          rintro e pb ⟨c, t, u, _, _, _, e4⟩; exact init_name e4
        have hmemL : ∀ pb ∈ pbs, ∃ e ∈ es, OfFile d' dir delta trim units e pb := by
          intro pb hpb
          obtain ⟨i, hi, rfl⟩ := List.getElem_of_mem hpb
          have hi' : i < es.length := by rw [hall.length_eq]; exact hi
          exact ⟨es[i], List.getElem_mem _, hall.get hi' hi⟩
        have hmemR : ∀ e ∈ es, ∃ pb ∈ pbs, OfFile d' dir delta trim units e pb := by
          intro e he
          obtain ⟨i, hi, rfl⟩ := List.getElem_of_mem he
          have hi' : i < pbs.length := by rw [← hall.length_eq]; exact hi
          exact ⟨pbs[i], List.getElem_mem _, hall.get hi hi'⟩
        have hdet := @ofFile_det K _ _ _ _ d' dir delta trim units
        have hfind : ∀ n pb, pbs.reverse.find? (fun pb => decide (pb.fullName = n)) = some pb ↔
            ∃ e ∈ es, n = dir.name ++ "_".toList ++ stem e ∧ OfFile d' dir delta trim units e pb := by
          intro n pb
          constructor
          · intro hf
            have hm := List.mem_of_find?_eq_some hf
            have hn := List.find?_some hf
            simp only [decide_eq_true_eq] at hn
            obtain ⟨e, he, ho⟩ := hmemL pb (by simpa using hm)
            exact ⟨e, he, hn.symm.trans (hfull ho).1, ho⟩
          · rintro ⟨e, he, hn, ho⟩
            obtain ⟨pb', hpb', ho'⟩ := hmemR e he
            cases hdet ho ho'
            cases hf : pbs.reverse.find? (fun pb => decide (pb.fullName = n)) with
            | none =>
              rw [List.find?_eq_none] at hf
              exact absurd ((hfull ho).1.trans hn.symm) (by simpa using hf pb (by simpa using hpb'))
            | some pb2 =>
              have hm := List.mem_of_find?_eq_some hf
              have hn2 := List.find?_some hf
              simp only [decide_eq_true_eq] at hn2
              obtain ⟨e2, he2, ho2⟩ := hmemL pb2 (by simpa using hm)
              have hs : stem e2 = stem e := by
                have := (hfull ho2).1.symm.trans (hn2.trans hn)
                exact List.append_cancel_left this
              have : e2 = e := hstem e2 ((hmem _).1 he2).1 e ((hmem _).1 he).1 ((hmem _).1 he2).2 ((hmem _).1 he).2 hs
              subst this
              rw [hdet ho2 ho]
        intro n pb
        cases filters with
        | none =>
          rw [(PassbandGroupProps.C64_filters_partial pbs []).2.2 g h2 n, hfind]
          constructor
          · rintro ⟨e, he, hn, ho⟩; exact ⟨e, ((hmem e).1 he).1, ((hmem e).1 he).2, hn, ho⟩
          · rintro ⟨e, he, hc, hn, ho⟩; exact ⟨e, (hmem e).2 ⟨he, hc⟩, hn, ho⟩
        | some fs =>
          rw [((PassbandGroupProps.C64_filters_partial pbs fs).1 g h2).1 n pb, hfind]
          constructor
          · rintro ⟨⟨e, he, hn, ho⟩, _⟩; exact ⟨e, ((hmem e).1 he).1, ((hmem e).1 he).2, hn, ho⟩
          · rintro ⟨e, he, hc, hn, ho⟩
            refine ⟨⟨e, (hmem e).2 ⟨he, hc⟩, hn, ho⟩, ?_⟩
            right
            rw [(hfull ho).2]
            exact hc.2 fs rfl

/-- C113. Two listings of one directory, in different orders, give groups with the same passbands. -/
theorem C113_order_partial {net : Net K} {base : FPath} {d d1 d2 : Disk K} {dir : FPath} {l1 l2 : List Name} {filters : Option (List Name)} {delta trim : Option K}
    {units : String} {g1 g2 : PassbandGroup K} (habs : dir.abs = true) (hperm : l1.Perm l2)
    (hstem : ∀ e ∈ l1, ∀ e' ∈ l1, Chosen d dir filters e → Chosen d dir filters e' → stem e = stem e' → e = e')
    (h1 : fromDir net base d dir (some l1) filters delta trim units = .ok (g1, d1))
    (h2 : fromDir net base d dir (some l2) filters delta trim units = .ok (g2, d2)) (n : Name) : g1.passbands.get? n = g2.passbands.get? n := by
  have a1 := (C113_from_dir_partial habs hstem h1).2 n
  have a2 := (C113_from_dir_partial habs (fun e he e' he' => hstem e (hperm.mem_iff.2 he) e' (hperm.mem_iff.2 he')) h2).2 n
  have : ∀ pb, g1.passbands.get? n = some pb ↔ g2.passbands.get? n = some pb := by
    intro pb
    rw [a1, a2]
    constructor
    · rintro ⟨e, he, hr⟩; exact ⟨e, hperm.mem_iff.1 he, hr⟩
    · rintro ⟨e, he, hr⟩; exact ⟨e, hperm.mem_iff.2 he, hr⟩
  cases h : g1.passbands.get? n with
  | some pb => exact ((this pb).1 h).symm
  | none =>
    cases h' : g2.passbands.get? n with
    | none => rfl
    | some pb => rw [(this pb).2 h'] at h; cases h

/-- C113 fails for two files with one stem (such as g.dat and g.txt): which of them is in the group depends on the order in which the directory is listed. -/
theorem C113_same_stem_counterexample {net : Net K} {base : FPath} {d d1 d2 : Disk K} {dir : FPath} {e1 e2 : Name} {delta trim : Option K} {units : String}
    {pb1 pb2 : Passband K} {g1 g2 : PassbandGroup K} (habs : dir.abs = true) (hs : stem e1 = stem e2)
    (hhas : d.has ⟨dir.abs, dir.parts ++ [e1]⟩ = true ∧ d.has ⟨dir.abs, dir.parts ++ [e2]⟩ = true)
    (ho1 : OfFile d dir delta trim units e1 pb1) (ho2 : OfFile d dir delta trim units e2 pb2)
    (h1 : fromDir net base d dir (some [e1, e2]) none delta trim units = .ok (g1, d1))
    (h2 : fromDir net base d dir (some [e2, e1]) none delta trim units = .ok (g2, d2)) :
    g1.passbands.get? (dir.name ++ "_".toList ++ stem e1) = some pb2 ∧ g2.passbands.get? (dir.name ++ "_".toList ++ stem e1) = some pb1 := by
  have key : ∀ {a b : Name} {pa pb : Passband K} {g : PassbandGroup K} {d' : Disk K}, stem a = stem b →
      d.has ⟨dir.abs, dir.parts ++ [a]⟩ = true → d.has ⟨dir.abs, dir.parts ++ [b]⟩ = true → OfFile d dir delta trim units a pa → OfFile d dir delta trim units b pb →
      fromDir net base d dir (some [a, b]) none delta trim units = .ok (g, d') → g.passbands.get? (dir.name ++ "_".toList ++ stem b) = some pb := by
    intro a b pa pb g d' hab ha hb hoa hob h
    unfold fromDir at h
    dsimp only at h
    have hes : ([a, b].filter (wanted d dir none)) = [a, b] := by
      rw [List.filter_eq_self]
      intro e he
      unfold wanted
      simp only [List.mem_cons, List.not_mem_nil, or_false] at he
      rcases he with rfl | rfl
      · simp [ha]
      · simp [hb]
    rw [hes] at h
    unfold groupInit at h
    rw [if_neg (by simp)] at h
    cases hl : loadAll net base {} d ([a, b].map (dirParams dir delta trim units)) with
    | error e => rw [hl] at h; cases h
    | ok q =>
      obtain ⟨pbs, d1⟩ := q
      rw [hl] at h
      dsimp only at h
      cases hi : PassbandGroup.init pbs none with
      | error e => rw [hi] at h; cases h
      | ok g' =>
        rw [hi] at h
        cases h
        obtain ⟨rfl, hall⟩ := dirAll habs [a, b] (by intro e he; simp only [List.mem_cons, List.not_mem_nil, or_false] at he; rcases he with rfl | rfl <;> assumption) hl
        match pbs, hall with
        | [x, y], .cons hx (.cons hy .nil) =>
          rw [(PassbandGroupProps.C64_filters_partial [x, y] []).2.2 g hi]
          have := ofFile_det hy hob
          subst this
          obtain ⟨c, t, u, _, _, _, e4⟩ := hy
          simp [(init_name e4).1]
  refine ⟨?_, key hs.symm hhas.2 hhas.1 ho2 ho1 h2⟩
  rw [hs]
  exact key hs hhas.1 hhas.2 ho1 ho2 h1

/-- C113 fails for every relative path of a directory (other than the current one): the directory's path is put before each file's path a second time, and reading
fails although the files are there. -/
theorem C113_relative_counterexample (net : Net K) (base : FPath) (d : Disk K) (dir : FPath) (entries : List Name) (filters : Option (List Name)) (delta trim : Option K)
    (units : String) (hrel : dir.abs = false) {e : Name} (hfirst : entries.find? (wanted d dir filters) = some e)
    (hno : d.has ⟨false, dir.parts ++ dir.parts ++ [e]⟩ = false) : fromDir net base d dir (some entries) filters delta trim units = .error .valueError := by
  unfold fromDir
  dsimp only
  generalize hes : (entries.filter (wanted d dir filters)) = es
  have hh : es.head? = some e := by rw [← hes, List.head?_filter]; exact hfirst
  match es, hh with
  | e' :: es, hh =>
    cases hh
    unfold groupInit
    rw [if_neg (by simp), List.map_cons]
    unfold dirParams
    unfold loadAll fromParams PbParams.fill
    dsimp only [Option.getD, HOrElse.hOrElse, OrElse.orElse, Option.orElse]
    have hj : dir.join (FPath.mk dir.abs (dir.parts ++ [e])) = FPath.mk false (dir.parts ++ dir.parts ++ [e]) := by
      unfold FPath.join
      rw [hrel]
      simp
    rw [hj]
    unfold fromFile
    dsimp only [tablePath]
    rw [(C112_fetch net d _ none false hno).2.2.1 (Or.inl rfl)]

end LCL.PbFilesProps
