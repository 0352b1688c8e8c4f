import Verif.Spec.PassbandFiles
import Verif.Props.PassbandGroup2

/-!
# Properties C111 (passband files) and C112 (downloads)
-/

namespace LCL.PbFilesProps
open LCL LCL.PbFiles LCL.PbFilesSpec
variable {K : Type} [Field K] [LinearOrder K] [IsStrictOrderedRing K]

theorem mapM_toPair (t : List (K × K)) : (rowsOf t).mapM toPair = some t := by
  induction t with
  | nil => rfl
  | cons p t ih =>
    unfold rowsOf at ih ⊢
    rw [List.map_cons, List.mapM_cons, ih]; rfl

theorem mapM_toPair_inv : ∀ (rows : List (List K)) {t : List (K × K)}, rows.mapM toPair = some t → rows = rowsOf t
  | [], t, h => by cases h; rfl
  | r :: rows, t, h => by
    rw [List.mapM_cons] at h
    cases h1 : toPair r with
    | none => rw [h1] at h; cases h
    | some p =>
      rw [h1] at h
      cases h2 : rows.mapM toPair with
      | none => rw [h2] at h; cases h
      | some t' =>
        rw [h2] at h
        cases h
        rw [mapM_toPair_inv rows h2]
        unfold toPair at h1
        split at h1
        · cases h1; rfl
        · cases h1

theorem readText_rows {t : List (K × K)} (h : 2 ≤ t.length) : readText (rowsOf t) = .ok t := by
  match t, h with
  | p :: q :: t, _ =>
    show (if (rowsOf (q :: t)).any (fun x => decide (x.length ≠ [p.1, p.2].length)) then _ else _) = _
    rw [if_neg, if_neg (by simp)]
    · have := mapM_toPair (p :: q :: t)
      show (match (rowsOf (p :: q :: t)).mapM toPair with | none => _ | some t => _) = _
      rw [this]
    · simp [rowsOf]

theorem readText_inv {rows : List (List K)} {t : List (K × K)} (h : readText rows = .ok t) : rows = rowsOf t ∧ 2 ≤ t.length := by
  match rows, h with
  | r :: r2 :: rows, h =>
    replace h : (if (r2 :: rows).any (fun x => decide (x.length ≠ r.length)) then (.error .valueError : Except Err (List (K × K)))
      else if r.length = 1 then .error .indexError
      else match (r :: r2 :: rows).mapM toPair with
        | none => .error .valueError
        | some t => .ok t) = .ok t := h
    split at h
    · cases h
    · split at h
      · cases h
      · cases h2 : (r :: r2 :: rows).mapM toPair with
        | none => rw [h2] at h; cases h
        | some t' =>
          rw [h2] at h
          cases h
          have e := mapM_toPair_inv _ h2
          refine ⟨e, ?_⟩
          have := congrArg List.length e
          simp only [List.length_cons, rowsOf, List.length_map] at this
          omega

theorem diff_spec : ∀ (l : List K) (P : K → Bool), (npDiff l).any P = true ↔ ∃ i a b, l[i]? = some a ∧ l[i + 1]? = some b ∧ P (b - a) = true
  | [], P => by simp [npDiff]
  | [x], P => by
    simp only [npDiff, List.any_nil, Bool.false_eq_true, false_iff]
    rintro ⟨i, a, b, _, h, _⟩
    simp at h
  | x :: y :: l, P => by
    rw [npDiff, List.any_cons, Bool.or_eq_true, diff_spec (y :: l) P]
    constructor
    · rintro (h | ⟨i, a, b, h1, h2, h3⟩)
      · exact ⟨0, x, y, rfl, rfl, h⟩
      · exact ⟨i + 1, a, b, by simpa using h1, by simpa using h2, h3⟩
    · rintro ⟨i, a, b, h1, h2, h3⟩
      cases i with
      | zero => simp at h1 h2; subst h1; subst h2; exact Or.inl h3
      | succ i => exact Or.inr ⟨i, a, b, by simpa using h1, by simpa using h2, h3⟩

theorem pairwise_iff_steps (l : List K) : l.Pairwise (· < ·) ↔ ∀ i a b, l[i]? = some a → l[i + 1]? = some b → a < b := by
  rw [← List.isChain_iff_pairwise, List.isChain_iff_getElem]
  constructor
  · intro h i a b h1 h2
    obtain ⟨hi, rfl⟩ := List.getElem?_eq_some_iff.1 h2
    obtain ⟨hj, rfl⟩ := List.getElem?_eq_some_iff.1 h1
    exact h i hi
  · intro h i hi
    exact h i _ _ (List.getElem?_eq_getElem _) (List.getElem?_eq_getElem hi)

/-- The check of the wavelengths accepts exactly strictly increasing ones. -/
theorem increasing_spec (t : List (K × K)) : increasing t = .ok t ∧ Increasing t ∨ (∃ e, increasing t = .error e) ∧ ¬ Increasing t := by
  unfold increasing Increasing
  rw [pairwise_iff_steps]
  by_cases h1 : (npDiff (t.map (·.1))).any (fun g => decide (g < 0)) = true
  · right
    rw [if_pos h1]
    refine ⟨⟨_, rfl⟩, ?_⟩
    obtain ⟨i, a, b, e1, e2, e3⟩ := (diff_spec _ _).1 h1
    intro h
    have := h i a b e1 e2
    simp only [decide_eq_true_eq] at e3
    linarith
  · rw [if_neg h1]
    by_cases h2 : (npDiff (t.map (·.1))).any (fun g => decide (g = 0)) = true
    · right
      rw [if_pos h2]
      refine ⟨⟨_, rfl⟩, ?_⟩
      obtain ⟨i, a, b, e1, e2, e3⟩ := (diff_spec _ _).1 h2
      intro h
      have := h i a b e1 e2
      simp only [decide_eq_true_eq] at e3
      linarith
    · left
      rw [if_neg h2]
      refine ⟨rfl, ?_⟩
      intro i a b e1 e2
      rcases lt_trichotomy a b with h | h | h
      · exact h
      · exact absurd ((diff_spec _ _).2 ⟨i, a, b, e1, e2, by simp [h]⟩) h2
      · exact absurd ((diff_spec _ _).2 ⟨i, a, b, e1, e2, by simp [h]⟩) h1

theorem validate_eq (t : List (K × K)) : Passband.validate t = increasing t := rfl

theorem increasing_scale {t : List (K × K)} {c : K} (hc : 0 < c) (f : K × K → K × K) (hf : ∀ p, (f p).1 = c * p.1) :
    Increasing (t.map f) ↔ Increasing t := by
  unfold Increasing
  rw [List.map_map, List.pairwise_map, List.pairwise_map]
  constructor <;> intro h <;> refine h.imp ?_
  · intro a b hab
    simp only [Function.comp_apply, hf] at hab
    exact lt_of_mul_lt_mul_left hab hc.le
  · intro a b hab
    simp only [Function.comp_apply, hf]
    exact mul_lt_mul_of_pos_left hab hc

theorem ten_pos : (0 : K) < 10 := by norm_num

theorem convert_eq {t : List (K × K)} {u : String} (hu : u = "nm" ∨ u = "A") : convert t u = .ok (inAngstrom u t) := by
  unfold convert inAngstrom
  rcases hu with rfl | rfl
  · simp [mul_comm]
  · simp

theorem inAngstrom_increasing (u : String) (t : List (K × K)) : Increasing (inAngstrom u t) ↔ Increasing t := by
  unfold inAngstrom
  split
  · exact increasing_scale ten_pos _ (fun _ => rfl)
  · rfl

theorem votUnit_iff (n : Name) (u : String) : votUnit n = .ok u ↔ UnitNamed n u := by
  unfold votUnit UnitNamed
  by_cases h1 : lower n ∈ ["nm".toList, "nanometers".toList, "namo".toList, "nanometer".toList]
  · have h2 : lower n ∉ ["a".toList, "aa".toList, "angstrom".toList, "angstroms".toList] := by
      intro h2
      simp only [List.mem_cons, List.not_mem_nil, or_false] at h1
      rcases h1 with h | h | h | h <;> rw [h] at h2 <;> revert h2 <;> decide
    rw [if_pos h1]
    constructor
    · intro h; cases h; exact Or.inl ⟨rfl, h1⟩
    · rintro (⟨rfl, _⟩ | ⟨_, h⟩)
      · rfl
      · exact absurd h h2
  · rw [if_neg h1]
    by_cases h2 : lower n ∈ ["a".toList, "aa".toList, "angstrom".toList, "angstroms".toList]
    · rw [if_pos h2]
      constructor
      · intro h; cases h; exact Or.inr ⟨rfl, h2⟩
      · rintro (⟨_, h⟩ | ⟨rfl, _⟩)
        · exact absurd h h1
        · rfl
    · rw [if_neg h2]
      constructor
      · intro h; cases h
      · rintro (⟨_, h⟩ | ⟨_, h⟩)
        · exact absurd h h1
        · exact absurd h h2

theorem not_both {n : Name} (h1 : AsciiName n) (h2 : VotName n) : False := by
  unfold AsciiName at h1
  unfold VotName at h2
  generalize suffix n = s at h1 h2
  simp only [List.mem_cons, List.not_mem_nil, or_false] at h1
  rcases h1 with rfl | rfl | rfl | rfl <;> revert h2 <;> decide

theorem readTable_iff (c : Content K) (name : Name) (units : String) (t : List (K × K)) (u : String) :
    readTable name c units = .ok (t, u) ↔ Holds c name units t u ∧ (AsciiName name → 2 ≤ t.length) ∧ t ≠ [] := by
  unfold readTable Holds
  by_cases hv : suffix name ∈ [".xml".toList, ".vot".toList, ".votable".toList]
  · have ha : ¬ AsciiName name := fun h => not_both h hv
    rw [if_pos hv]
    constructor
    · intro h
      cases c with
      | text rows => cases h
      | csv cols => cases h
      | votable fields rows =>
        dsimp only at h
        unfold readVot at h
        match fields, h with
        | [f, v], h =>
          dsimp only at h
          split at h
          · rename_i hp
            cases h1 : rows.mapM toPair with
            | none => rw [h1] at h; cases h
            | some t' =>
              rw [h1] at h; dsimp only at h
              cases h2 : votUnit f.2 with
              | error e => rw [h2] at h; cases h
              | ok u' =>
                rw [h2] at h; dsimp only at h
                split at h
                · cases h
                · rename_i hne
                  cases h
                  exact ⟨Or.inr ⟨hv, f, v, by rw [mapM_toPair_inv _ h1], List.isPrefixOf_iff_prefix.1 hp, (votUnit_iff _ _).1 h2⟩, fun h => absurd h ha, hne⟩
          · cases h
    · rintro ⟨h | ⟨_, w, v, rfl, hp, hu⟩, _, hne⟩
      · exact absurd h.1 ha
      · dsimp only
        unfold readVot
        dsimp only
        rw [if_pos (List.isPrefixOf_iff_prefix.2 hp), mapM_toPair]
        dsimp only
        rw [(votUnit_iff _ _).2 hu]
        dsimp only
        rw [if_neg hne]
  · rw [if_neg hv]
    by_cases ha : suffix name ∈ [".csv".toList, ".ecsv".toList, ".txt".toList, ".dat".toList]
    · rw [if_pos ha]
      constructor
      · intro h
        cases c with
        | csv cols => cases h
        | votable f r => cases h
        | text rows =>
          dsimp only at h
          cases h1 : readText rows with
          | error e => rw [h1] at h; cases h
          | ok t' =>
            rw [h1] at h
            cases h
            obtain ⟨e1, e2⟩ := readText_inv h1
            exact ⟨Or.inl ⟨ha, by rw [e1], rfl⟩, fun _ => e2, by rintro rfl; simp at e2⟩
      · rintro ⟨⟨_, rfl, rfl⟩ | h, h2, _⟩
        · dsimp only
          rw [readText_rows (h2 ha)]
        · exact absurd h.1 hv
    · rw [if_neg ha]
      constructor
      · intro h; cases h
      · rintro ⟨⟨h, _⟩ | ⟨h, _⟩, _⟩
        · exact absurd h ha
        · exact absurd h hv

/-- C111. What `load_transmission_table` accepts and what it gives: a file is loaded exactly if it exists, its content is a two-column table (for ASCII files with at
least two rows) in a known unit with strictly increasing wavelengths, and then the table is the file's, with the wavelengths in Angstroms. A VOTable's own unit counts,
for an ASCII file the unit given. -/
theorem C111_load (d : Disk K) (p : FPath) (units : String) (r : List (K × K)) :
    loadTable d p units = .ok r ↔ ∃ c t u, d.files.get? (d.loc p) = some c ∧ Holds c p.name units t u ∧ (AsciiName p.name → 2 ≤ t.length) ∧ t ≠ [] ∧
      (u = "nm" ∨ u = "A") ∧ Increasing t ∧ r = inAngstrom u t := by
  unfold loadTable
  constructor
  · intro h
    cases hc : d.files.get? (d.loc p) with
    | none => rw [hc] at h; cases h
    | some c =>
      rw [hc] at h; dsimp only at h
      cases ht : readTable p.name c units with
      | error e => rw [ht] at h; cases h
      | ok tu =>
        obtain ⟨t, u⟩ := tu
        rw [ht] at h; dsimp only at h
        obtain ⟨h1, h2, h3⟩ := (readTable_iff _ _ _ _ _).1 ht
        cases hcv : convert t u with
        | error e => rw [hcv] at h; cases h
        | ok t1 =>
          have hu : u = "nm" ∨ u = "A" := by
            unfold convert at hcv
            split at hcv
            · left; assumption
            · split at hcv
              · right; assumption
              · cases hcv
          rw [hcv] at h; dsimp only at h
          rw [convert_eq hu] at hcv
          cases hcv
          rcases increasing_spec (inAngstrom u t) with ⟨e1, e2⟩ | ⟨⟨e, e1⟩, _⟩
          · rw [e1] at h
            cases h
            exact ⟨c, t, u, rfl, h1, h2, h3, hu, (inAngstrom_increasing u t).1 e2, rfl⟩
          · rw [e1] at h; cases h
  · rintro ⟨c, t, u, hc, h1, h2, h3, hu, hinc, rfl⟩
    rw [hc]
    dsimp only
    rw [(readTable_iff _ _ _ _ _).2 ⟨h1, h2, h3⟩]
    dsimp only
    rw [convert_eq hu]
    dsimp only
    rcases increasing_spec (inAngstrom u t) with ⟨e1, _⟩ | ⟨_, e⟩
    · exact e1
    · exact absurd ((inAngstrom_increasing u t).2 hinc) e

/-- C111. A passband read from an existing file is the passband constructed from the file's table in the file's units (same result or same exception), and nothing
is downloaded or changed. -/
theorem C111_from_file [FloorRing K] (net : Net K) (base : FPath) (d : Disk K) (survey filter : Name) (a : FileArgs K) {c : Content K} {t : List (K × K)} {u : String}
    (hf : a.force = false) (hc : d.files.get? (d.loc (tablePath base survey filter a.path)) = some c)
    (ht : Holds c (tablePath base survey filter a.path).name a.units t u) (h2 : 2 ≤ t.length) (hu : u = "nm" ∨ u = "A") (hinc : Increasing t) :
    fromFile net base d survey filter a = keeping d (Passband.init t survey filter a.delta a.trim u) := by
  unfold fromFile
  dsimp only
  have hd : download net d (tablePath base survey filter a.path) a.url a.force = .ok (true, d) := by
    unfold download
    rw [if_pos ⟨hf, by unfold Disk.has Dict.has; rw [hc]; rfl⟩]
  rw [hd]
  dsimp only
  rw [(C111_load d _ a.units _).2 ⟨c, t, u, hc, ht, fun _ => h2, by rintro rfl; simp at h2, hu, hinc, rfl⟩]
  dsimp only
  have e : Passband.init (inAngstrom u t) survey filter a.delta a.trim "A" = Passband.init t survey filter a.delta a.trim u := by
    unfold Passband.init
    rw [validate_eq, validate_eq]
    have k1 : increasing (inAngstrom u t) = .ok (inAngstrom u t) := by
      rcases increasing_spec (inAngstrom u t) with ⟨e1, _⟩ | ⟨_, e⟩
      · exact e1
      · exact absurd ((inAngstrom_increasing u t).2 hinc) e
    have k2 : increasing t = .ok t := by
      rcases increasing_spec t with ⟨e1, _⟩ | ⟨_, e⟩
      · exact e1
      · exact absurd hinc e
    rw [k1, k2]
    dsimp only
    have k3 : Passband.toAngstrom (inAngstrom u t) "A" = .ok (inAngstrom u t) := by simp [Passband.toAngstrom]
    have k4 : Passband.toAngstrom t u = .ok (inAngstrom u t) := convert_eq hu
    rw [k3, k4]
  rw [e]
  unfold keeping
  cases Passband.init t survey filter a.delta a.trim u <;> rfl

/-- C111. Everything that is read comes from the file: a passband from a file has, as its loaded table, the table in the file in Angstroms, which strictly increases. -/
theorem C111_sound [FloorRing K] {net : Net K} {base : FPath} {d d' : Disk K} {survey filter : Name} {a : FileArgs K} {pb : Passband K}
    (h : fromFile net base d survey filter a = .ok (pb, d')) :
    pb.fullName = survey ++ "_".toList ++ filter ∧ pb.filterName = filter ∧ pb.deltaWave = a.delta ∧
    ∃ c t u, d'.files.get? (d'.loc (tablePath base survey filter a.path)) = some c ∧ Holds c (tablePath base survey filter a.path).name a.units t u ∧
      (u = "nm" ∨ u = "A") ∧ Increasing t ∧ pb.loaded = inAngstrom u t := by
  unfold fromFile at h
  dsimp only at h
  cases hd : download net d (tablePath base survey filter a.path) a.url a.force with
  | error e => rw [hd] at h; cases h
  | ok bd =>
    obtain ⟨b, d1⟩ := bd
    rw [hd] at h
    cases b with
    | false => cases h
    | true =>
      dsimp only at h
      cases hl : loadTable d1 (tablePath base survey filter a.path) a.units with
      | error e => rw [hl] at h; cases h
      | ok t1 =>
        rw [hl] at h; dsimp only at h
        cases hi : Passband.init t1 survey filter a.delta a.trim "A" with
        | error e => rw [hi] at h; cases h
        | ok pb' =>
          rw [hi] at h
          cases h
          obtain ⟨c, t, u, e1, e2, _, _, e3, e4, rfl⟩ := (C111_load _ _ _ _).1 hl
          unfold Passband.init at hi
          rw [validate_eq] at hi
          rcases increasing_spec (inAngstrom u t) with ⟨k, _⟩ | ⟨⟨e, k⟩, _⟩
          · rw [k] at hi
            dsimp only at hi
            have k3 : Passband.toAngstrom (inAngstrom u t) "A" = .ok (inAngstrom u t) := by simp [Passband.toAngstrom]
            rw [k3] at hi
            dsimp only at hi
            cases hp : Passband.process (inAngstrom u t) a.delta a.trim with
            | error e => rw [hp] at hi; cases hi
            | ok t2 =>
              rw [hp] at hi
              cases hi
              exact ⟨by simp, rfl, rfl, c, t, u, e1, e2, e3, e4, rfl⟩
          · rw [k] at hi; cases hi

/-- C111 fails for repeated wavelengths, which the documentation says are averaged: every file with increasing wavelengths some of which are equal raises TypeError. -/
theorem C111_duplicate_counterexample (d : Disk K) (p : FPath) (units : String) {c : Content K} {t : List (K × K)} {u : String}
    (hc : d.files.get? (d.loc p) = some c) (ht : Holds c p.name units t u) (h2 : 2 ≤ t.length) (hu : u = "nm" ∨ u = "A")
    (hle : (t.map (·.1)).Pairwise (· ≤ ·)) (hdup : ¬ Increasing t) : loadTable d p units = .error .typeError := by
  unfold loadTable
  rw [hc]
  dsimp only
  rw [(readTable_iff _ _ _ _ _).2 ⟨ht, fun _ => h2, by rintro rfl; simp at h2⟩]
  dsimp only
  rw [convert_eq hu]
  dsimp only
  have hle' : ((inAngstrom u t).map (·.1)).Pairwise (· ≤ ·) := by
    unfold inAngstrom
    split
    · rw [List.map_map, List.pairwise_map]
      rw [List.pairwise_map] at hle
      exact hle.imp fun hab => mul_le_mul_of_nonneg_left hab (ten_pos (K := K)).le
    · exact hle
  have hdup' : ¬ Increasing (inAngstrom u t) := fun h => hdup ((inAngstrom_increasing u t).1 h)
  unfold increasing
  have h1 : ¬ (npDiff ((inAngstrom u t).map (·.1))).any (fun g => decide (g < 0)) = true := by
    intro h
    obtain ⟨i, x, y, e1, e2, e3⟩ := (diff_spec _ _).1 h
    simp only [decide_eq_true_eq] at e3
    obtain ⟨hi, rfl⟩ := List.getElem?_eq_some_iff.1 e1
    obtain ⟨hj, rfl⟩ := List.getElem?_eq_some_iff.1 e2
    have := (List.pairwise_iff_getElem.1 hle') i (i + 1) hi hj (by omega)
    linarith
  rw [if_neg h1]
  rcases increasing_spec (inAngstrom u t) with ⟨_, k⟩ | ⟨⟨e, k⟩, _⟩
  · exact absurd k hdup'
  · unfold increasing at k
    rw [if_neg h1] at k
    split at k
    · rename_i h3; rw [if_pos h3]
    · cases k

/-- C111 fails for an ASCII file with one row: IndexError instead of the documented exception or a table. -/
theorem C111_one_row_counterexample (d : Disk K) (p : FPath) (units : String) (w y : K) (hc : d.files.get? (d.loc p) = some (.text [[w, y]])) (hn : AsciiName p.name) :
    loadTable d p units = .error .indexError := by
  unfold loadTable
  rw [hc]
  dsimp only
  unfold readTable
  have h1 : ¬ suffix p.name ∈ [".xml".toList, ".vot".toList, ".votable".toList] := fun h => not_both hn h
  have h2 : suffix p.name ∈ [".csv".toList, ".ecsv".toList, ".txt".toList, ".dat".toList] := hn
  rw [if_neg h1, if_pos h2]
  rfl

/-- A three-row file in nanometers. -/
def nmDisk : Disk ℚ := ⟨[(["data".toList, "g.dat".toList], .text [[40, 0], [50, 1], [60, 0]])], []⟩

example : fromFile (fun _ => none) ⟨true, []⟩ nmDisk "S".toList "g".toList
    { delta := none, trim := none, path := some ⟨true, ["data".toList, "g.dat".toList]⟩, units := "nm" } =
    keeping nmDisk (Passband.init [(40, 0), (50, 1), (60, 0)] "S".toList "g".toList none none "nm") :=
  C111_from_file _ _ _ _ _ _ (c := .text [[40, 0], [50, 1], [60, 0]]) rfl rfl (Or.inl ⟨by unfold AsciiName; decide, rfl, rfl⟩) (by decide) (Or.inl rfl)
    (by unfold Increasing; decide)

example : loadTable nmDisk ⟨false, ["data".toList, "g.dat".toList]⟩ "nm" = .ok [(400, 0), (500, 1), (600, 0)] :=
  (C111_load _ _ _ _).2 ⟨_, [(40, 0), (50, 1), (60, 0)], "nm", rfl, Or.inl ⟨by unfold AsciiName; decide, rfl, rfl⟩, fun _ => by decide, by decide, Or.inl rfl,
    by unfold Increasing; decide, by unfold inAngstrom; norm_num⟩

/-- C111. Without a path, the table is looked for in `passbands/{survey}/{filter}.dat` of the data directory. -/
theorem C111_default_path (base : FPath) (survey filter : Name) (hs : '/' ∉ survey) (hs' : survey ≠ []) (hf : '/' ∉ filter) :
    tablePath base survey filter none = ⟨base.abs, base.parts ++ ["passbands".toList, survey, filter ++ ".dat".toList]⟩ := by
  have hsplit : ∀ (n : Name), '/' ∉ n → splitAt '/' n = [n] := by
    intro n
    induction n with
    | nil => intro _; rfl
    | cons x l ih =>
      intro h
      have h1 : x ≠ '/' := by rintro rfl; exact h (by simp)
      have h2 : '/' ∉ l := fun hm => h (by simp [hm])
      unfold splitAt
      rw [ih h2]
      dsimp only
      rw [if_neg h1]
  have hf' : '/' ∉ filter ++ ".dat".toList := by
    rw [List.mem_append]
    rintro (h | h)
    · exact hf h
    · revert h; decide
  unfold tablePath FPath.child
  rw [hsplit _ (by decide), hsplit _ hs, hsplit _ hf']
  have e1 : ([survey].filter fun x => decide (x ≠ [])) = [survey] := by simp [hs']
  have e2 : ([filter ++ ".dat".toList].filter fun x => decide (x ≠ [])) = [filter ++ ".dat".toList] := by simp
  have e3 : (["passbands".toList].filter fun x => decide (x ≠ [])) = ["passbands".toList] := by decide
  rw [e1, e2, e3]
  simp

example : tablePath ⟨true, ["data".toList]⟩ "LSST".toList "g".toList none = ⟨true, ["data".toList, "passbands".toList, "LSST".toList, "g.dat".toList]⟩ :=
  C111_default_path _ _ _ (by decide) (by decide) (by decide)

/-! ### Downloads -/

theorem has_iff_get (d : Disk K) (p : FPath) : d.has p = true ↔ ∃ c, d.files.get? (d.loc p) = some c := by
  unfold Disk.has Dict.has
  cases d.files.get? (d.loc p) <;> simp

/-- C112. Whatever the network, an existing file is kept and nothing is downloaded (unless forced). -/
theorem C112_offline (net : Net K) (d : Disk K) (p : FPath) (url : Option Name) (h : d.has p = true) : download net d p url false = .ok (true, d) := by
  unfold download
  rw [if_pos ⟨rfl, h⟩]

/-- C112. A file that is missing is fetched: the call succeeds exactly if a URL is given and the network gives it, then the file has the content at the URL, every
other file is as before, and further calls change nothing, even without network. -/
theorem C112_fetch (net : Net K) (d : Disk K) (p : FPath) (url : Option Name) (force : Bool) (h : d.has p = false) :
    (∀ b d', download net d p url force = .ok (b, d') → b = true ∧ d'.cwd = d.cwd ∧ (∀ l, l ≠ d.loc p → d'.files.get? l = d.files.get? l) ∧
      (∃ u c, url = some u ∧ net u = some c ∧ d'.files.get? (d.loc p) = some c) ∧
      ∀ net' url', download net' d' p url' false = .ok (true, d')) ∧
    (∀ u c, url = some u → u ≠ [] → net u = some c → ∃ d', download net d p url force = .ok (true, d')) ∧
    (url = none ∨ url = some [] → download net d p url force = .error .valueError) ∧
    (∀ u, url = some u → u ≠ [] → net u = none → download net d p url force = .error .osError) := by
  have h0 : ¬ (force = false ∧ d.has p = true) := by rintro ⟨_, h'⟩; rw [h] at h'; cases h'
  have hget : ∀ u c, net u = some c → retrieve net d p u = .ok { d with files := d.files.set (d.loc p) c } := by
    intro u c hc
    unfold retrieve
    rw [if_neg (by rw [h]; simp), hc]
  have hhas : ∀ c, ({ d with files := d.files.set (d.loc p) c } : Disk K).has p = true := by
    intro c
    rw [has_iff_get]
    exact ⟨c, Dict.get?_set_self _ _ _⟩
  have key : ∀ u c, url = some u → u ≠ [] → net u = some c → download net d p url force = .ok (true, { d with files := d.files.set (d.loc p) c }) := by
    intro u c hu hne hc
    unfold download
    rw [if_neg h0, hu]
    match u, hne with
    | x :: u, _ =>
      dsimp only
      rw [hget _ _ hc]
      dsimp only
      rw [hhas]
  refine ⟨?_, ?_, ?_, ?_⟩
  · intro b d' hd
    match url, hd, key with
    | none, hd, _ => unfold download at hd; rw [if_neg h0] at hd; cases hd
    | some [], hd, _ => unfold download at hd; rw [if_neg h0] at hd; cases hd
    | some (x :: u), hd, key =>
      cases hc : net (x :: u) with
      | none =>
        unfold download at hd
        rw [if_neg h0] at hd
        dsimp only at hd
        unfold retrieve at hd
        rw [if_neg (by rw [h]; simp), hc] at hd
        cases hd
      | some c =>
        rw [key _ c rfl (by simp) hc] at hd
        cases hd
        refine ⟨rfl, rfl, ?_, ⟨_, c, rfl, hc, Dict.get?_set_self _ _ _⟩, ?_⟩
        · intro l hl
          exact Dict.get?_set_ne _ _ (Ne.symm hl)
        · intro net' url'
          exact C112_offline net' _ p url' (hhas c)
  · intro u c hu hne hc
    exact ⟨_, key u c hu hne hc⟩
  · intro hu
    unfold download
    rw [if_neg h0]
    rcases hu with rfl | rfl <;> rfl
  · intro u hu hne hc
    unfold download
    rw [if_neg h0, hu]
    match u, hne with
    | x :: u, _ =>
      dsimp only
      unfold retrieve
      rw [if_neg (by rw [h]; simp), hc]

/-- C112 fails for `force_download=True`: an existing file is never downloaded again, whatever the network has now. -/
theorem C112_force_counterexample (net : Net K) (d : Disk K) (p : FPath) (u : Name) (hu : u ≠ []) (h : d.has p = true) :
    download net d p (some u) true = .ok (true, d) := by
  unfold download
  rw [if_neg (by simp)]
  match u, hu with
  | x :: u, _ =>
    dsimp only
    unfold retrieve
    rw [if_pos h]
    dsimp only
    rw [h]

/-- A disk with an outdated file, and a network with a new one. -/
example : ∃ (net : Net ℚ) (d d' : Disk ℚ) (p : FPath), d.files.get? (d.loc p) = some (.text [[1, 2]]) ∧ net "u".toList = some (.text [[3, 4]]) ∧
    download net d p (some "u".toList) true = .ok (true, d') ∧ d'.files.get? (d'.loc p) = some (.text [[1, 2]]) := by
  refine ⟨fun _ => some (.text [[3, 4]]), ⟨[(["a".toList], .text [[1, 2]])], []⟩, ⟨[(["a".toList], .text [[1, 2]])], []⟩, ⟨true, ["a".toList]⟩, rfl, rfl, ?_, rfl⟩
  exact C112_force_counterexample _ _ _ _ (by decide) rfl

/-- C112. `OpSim.from_url` of a file name that is not yet on the disk reads what the URL has. -/
theorem C112_opsim_partial (net : Net K) (base : FPath) (d : Disk K) (url : Name) (force : Bool) (p : FPath) (d' : Disk K)
    (hnew : d.has ((base.child "opsim".toList).child ((splitAt '/' url).getLastD [])) = false) (h : opsimFile net base d url force = .ok (p, d')) :
    ∃ c, net url = some c ∧ d'.files.get? (d'.loc p) = some c := by
  unfold opsimFile at h
  dsimp only at h
  generalize hp : (base.child "opsim".toList).child ((splitAt '/' url).getLastD []) = q at h hnew
  cases hd : download net d q (some url) force with
  | error e => rw [hd] at h; cases h
  | ok bd =>
    obtain ⟨b, d1⟩ := bd
    rw [hd] at h
    cases b with
    | false => cases h
    | true =>
      cases h
      obtain ⟨_, e1, _, ⟨u, c, e2, e3, e4⟩, _⟩ := (C112_fetch net d p (some url) force hnew).1 true d' hd
      cases e2
      refine ⟨c, e3, ?_⟩
      have : d'.loc p = d.loc p := by unfold Disk.loc; rw [e1]
      rw [this]; exact e4

/-- C112 fails for two URLs that end in the same file name: after the first was used, the second one gives the first one's data, even if the download is forced. -/
theorem C112_same_name_counterexample (net : Net K) (base : FPath) (d d1 : Disk K) (u1 u2 : Name) (f1 f2 : Bool) (p : FPath) (c : Content K)
    (hsame : (splitAt '/' u1).getLastD [] = (splitAt '/' u2).getLastD []) (hu : u2 ≠ [])
    (h : opsimFile net base d u1 f1 = .ok (p, d1)) (hc : d1.files.get? (d1.loc p) = some c) : opsimFile net base d1 u2 f2 = .ok (p, d1) := by
  have hp : p = (base.child "opsim".toList).child ((splitAt '/' u1).getLastD []) := by
    unfold opsimFile at h
    dsimp only at h
    split at h
    · cases h
    · cases h
    · cases h; rfl
  unfold opsimFile
  dsimp only
  rw [← hsame, ← hp]
  have : download net d1 p (some u2) f2 = .ok (true, d1) := by
    have hh : d1.has p = true := (has_iff_get _ _).2 ⟨c, hc⟩
    cases f2 with
    | false => exact C112_offline _ _ _ _ hh
    | true => exact C112_force_counterexample _ _ _ _ hu hh
  rw [this]

theorem lastDot_none {l : Name} (h : '.' ∉ l) : lastDot l = none := by
  induction l with
  | nil => rfl
  | cons x l ih =>
    simp only [List.mem_cons, not_or] at h
    simp only [lastDot, ih h.2]
    rw [if_neg (fun e => h.1 e.symm)]

theorem lastDot_ext (s : Name) {e : Name} (he : '.' ∉ e) : lastDot (s ++ '.' :: e) = some s.length := by
  induction s with
  | nil => simp only [List.nil_append, lastDot, lastDot_none he]; rfl
  | cons x s ih => simp only [List.cons_append, lastDot, ih]; rfl

/-- C111, C113, what decides the parser and the name of a passband: of a file name with a dot that is neither first nor last, the suffix is the part from the last dot on and
the stem the part before it; any other name has no suffix and is its own stem. -/
theorem C111_suffix (s e : Name) (he : '.' ∉ e) :
    (s ≠ [] → e ≠ [] → suffix (s ++ '.' :: e) = '.' :: e ∧ stem (s ++ '.' :: e) = s) ∧
    (suffix e = [] ∧ stem e = e) ∧ (suffix ('.' :: e) = [] ∧ stem ('.' :: e) = '.' :: e) ∧ (suffix (s ++ ['.']) = [] ∧ stem (s ++ ['.']) = s ++ ['.']) := by
  refine ⟨?_, ?_, ?_, ?_⟩
  · intro hs hn
    have hl : 0 < s.length ∧ s.length + 1 < (s ++ '.' :: e).length := by
      have := List.length_pos_iff.2 hs
      have := List.length_pos_iff.2 hn
      simp only [List.length_append, List.length_cons]; omega
    unfold suffix stem
    rw [lastDot_ext s he]
    dsimp only
    rw [if_pos hl, if_pos hl]
    simp
  · unfold suffix stem
    rw [lastDot_none he]
    exact ⟨rfl, rfl⟩
  · have h := lastDot_ext [] he
    unfold suffix stem
    rw [List.nil_append] at h
    rw [h]
    simp
  · unfold suffix stem
    rw [lastDot_ext s (e := []) (by simp)]
    simp

end LCL.PbFilesProps
