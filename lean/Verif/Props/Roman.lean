import Verif.Model.Roman
import Verif.Props.ObsTable
import Verif.Props.Persist
import Verif.Props.Bandfluxes
import Verif.Props.RandomSurvey
import Mathlib.Data.Set.Card

/-!
# C106: the construction of Roman survey tables
-/

namespace LCL.RomanProps
open LCL Roman ObsTable ObsSpec ObsLemmas ObsTableProps PhotSpec Real RandomSurveyProps

/-- The value of the first row with the key. -/
def FirstRow {κ : Type} (rows : List (κ × ℝ)) (k : κ) (x : ℝ) : Prop := ∃ pre post, rows = pre ++ (k, x) :: post ∧ ∀ q ∈ pre, q.1 ≠ k

/-- The table knows the key. -/
def Knows {κ : Type} (rows : List (κ × ℝ)) (k : κ) : Prop := ∃ x, (k, x) ∈ rows

theorem firstOf_unknown {κ : Type} {rows : List (κ × ℝ)} {k : κ} (h : ¬ Knows rows k) : firstOf rows k = .error .indexError := by
  classical
  unfold firstOf
  rw [List.find?_eq_none.2]
  intro q hq
  simp only [decide_eq_true_eq]
  rintro rfl
  exact h ⟨q.2, hq⟩

theorem firstOf_known {κ : Type} : ∀ {rows : List (κ × ℝ)} {k : κ}, Knows rows k → ∃ x, firstOf rows k = .ok x ∧ FirstRow rows k x
  | [], k, ⟨x, h⟩ => by simp at h
  | (k', y) :: rows, k, ⟨x, h⟩ => by
    classical
    by_cases e : k' = k
    · subst e
      refine ⟨y, ?_, [], rows, rfl, by simp⟩
      unfold firstOf
      simp
    · have h' : Knows rows k := by
        rcases List.mem_cons.1 h with h | h
        · cases h; exact absurd rfl e
        · exact ⟨x, h⟩
      obtain ⟨z, h1, pre, post, h2, h3⟩ := firstOf_known h'
      refine ⟨z, ?_, (k', y) :: pre, post, by rw [h2]; rfl, ?_⟩
      · unfold firstOf at h1 ⊢
        rw [List.find?_cons_of_neg (by simpa using e)]
        exact h1
      · intro q hq
        rcases List.mem_cons.1 hq with rfl | hq
        · exact e
        · exact h3 q hq

/-- The value, as a function. -/
noncomputable def valOf {κ : Type} (rows : List (κ × ℝ)) (k : κ) : ℝ := match firstOf rows k with | .ok x => x | .error _ => 0

theorem firstOf_val {κ : Type} {rows : List (κ × ℝ)} {k : κ} (h : Knows rows k) : firstOf rows k = .ok (valOf rows k) ∧ FirstRow rows k (valOf rows k) := by
  obtain ⟨x, h1, h2⟩ := firstOf_known h
  unfold valOf
  rw [h1]
  exact ⟨rfl, h2⟩

theorem put_length {κ : Type} (keys : List κ) (f : κ) (x : ℝ) (col : List ℝ) (h : col.length = keys.length) : (put keys f x col).length = keys.length := by
  unfold put
  rw [List.length_zipWith, h, min_self]

theorem put_get {κ : Type} (keys : List κ) (f : κ) (x : ℝ) (col : List ℝ) (i : Nat) (k : κ) (y : ℝ) (h1 : keys[i]? = some k) (h2 : col[i]? = some y) :
    (k = f → (put keys f x col)[i]? = some x) ∧ (k ≠ f → (put keys f x col)[i]? = some y) := by
  unfold put
  rw [List.getElem?_zipWith, h1, h2]
  exact ⟨fun h => by simp [h], fun h => by simp [h]⟩

/-- Filling in a value for each of the keys. -/
noncomputable def fill {κ : Type} (keys : List κ) (v : κ → ℝ) (fs : List κ) (col : List ℝ) : List ℝ := fs.foldl (fun c f => put keys f (v f) c) col

theorem fill_get {κ : Type} (keys : List κ) (v : κ → ℝ) : ∀ (fs : List κ) (col : List ℝ), col.length = keys.length →
    (fill keys v fs col).length = keys.length ∧ ∀ (i : Nat) (k : κ), keys[i]? = some k →
      (k ∈ fs → (fill keys v fs col)[i]? = some (v k)) ∧ (k ∉ fs → (fill keys v fs col)[i]? = col[i]?)
  | [], col, h => ⟨h, fun i k _ => ⟨fun h => by simp at h, fun _ => rfl⟩⟩
  | f :: fs, col, h => by
    classical
    obtain ⟨h1, h2⟩ := fill_get keys v fs (put keys f (v f) col) (put_length keys f _ col h)
    refine ⟨h1, fun i k hk => ?_⟩
    obtain ⟨h3, h4⟩ := h2 i k hk
    have hi : i < col.length := by rw [h]; exact (List.getElem?_eq_some_iff.1 hk).1
    obtain ⟨p1, p2⟩ := put_get keys f (v f) col i k col[i] hk (List.getElem?_eq_getElem hi)
    change ((k ∈ f :: fs → (fill keys v fs (put keys f (v f) col))[i]? = _) ∧ (k ∉ f :: fs → (fill keys v fs (put keys f (v f) col))[i]? = _))
    by_cases hf : k ∈ fs
    · exact ⟨fun _ => h3 hf, fun h => absurd (List.mem_cons_of_mem _ hf) h⟩
    · rw [h4 hf]
      constructor
      · intro hm
        rcases List.mem_cons.1 hm with rfl | hm
        · exact p1 rfl
        · exact absurd hm hf
      · intro hm
        rw [p2 (fun e => hm (by rw [e]; exact List.mem_cons_self)), List.getElem?_eq_getElem hi]

/-- A filter is known when all four tables know it. -/
def KnownBand (ch : Chars) (b : Name) : Prop := Knows ch.zp b ∧ Knows ch.pix b ∧ Knows ch.zodi b ∧ Knows ch.thermal b

theorem bandLoop_ok (ch : Chars) (bands : List Name) : ∀ (fs : List Name) (a : Added), (∀ f ∈ fs, KnownBand ch f) →
    bandLoop ch bands fs a = (⟨fill bands (valOf ch.zp) fs a.zp, fill bands (valOf ch.pix) fs a.pix, fill bands (valOf ch.zodi) fs a.zodi,
      fill bands (valOf ch.thermal) fs a.thermal, a.time, a.exptime⟩, none)
  | [], a, _ => rfl
  | f :: fs, a, h => by
    obtain ⟨h1, h2, h3, h4⟩ := h f List.mem_cons_self
    unfold bandLoop
    rw [(firstOf_val h1).1, (firstOf_val h2).1, (firstOf_val h3).1, (firstOf_val h4).1]
    dsimp only
    rw [bandLoop_ok ch bands fs _ fun g hg => h g (List.mem_cons_of_mem _ hg)]
    rfl

theorem bandLoop_bad (ch : Chars) (bands : List Name) : ∀ (fs : List Name) (a : Added), (∃ f ∈ fs, ¬ KnownBand ch f) →
    (bandLoop ch bands fs a).2 = some .indexError
  | [], a, h => by simp at h
  | f :: fs, a, h => by
    classical
    unfold bandLoop
    by_cases h1 : Knows ch.zp f
    · rw [(firstOf_val h1).1]
      dsimp only
      by_cases h2 : Knows ch.pix f
      · rw [(firstOf_val h2).1]
        dsimp only
        by_cases h3 : Knows ch.zodi f
        · rw [(firstOf_val h3).1]
          dsimp only
          by_cases h4 : Knows ch.thermal f
          · rw [(firstOf_val h4).1]
            dsimp only
            apply bandLoop_bad
            obtain ⟨g, hg, hb⟩ := h
            rcases List.mem_cons.1 hg with rfl | hg
            · exact absurd ⟨h1, h2, h3, h4⟩ hb
            · exact ⟨g, hg, hb⟩
          · rw [firstOf_unknown h4]
        · rw [firstOf_unknown h3]
      · rw [firstOf_unknown h2]
    · rw [firstOf_unknown h1]

theorem maLoop_ok (ma : List (ℝ × ℝ)) (nums : List ℝ) : ∀ (ms : List ℝ) (a : Added), (∀ m ∈ ms, Knows ma m) →
    maLoop ma nums ms a = ({ a with exptime := fill nums (valOf ma) ms a.exptime }, none)
  | [], a, _ => rfl
  | m :: ms, a, h => by
    unfold maLoop
    rw [(firstOf_val (h m List.mem_cons_self)).1]
    dsimp only
    rw [maLoop_ok ma nums ms _ fun g hg => h g (List.mem_cons_of_mem _ hg)]
    rfl

theorem maLoop_bad (ma : List (ℝ × ℝ)) (nums : List ℝ) : ∀ (ms : List ℝ) (a : Added), (∃ m ∈ ms, ¬ Knows ma m) →
    (maLoop ma nums ms a).2 = some .indexError
  | [], a, h => by simp at h
  | m :: ms, a, h => by
    classical
    unfold maLoop
    by_cases h1 : Knows ma m
    · rw [(firstOf_val h1).1]
      dsimp only
      apply maLoop_bad
      obtain ⟨g, hg, hb⟩ := h
      rcases List.mem_cons.1 hg with rfl | hg
      · exact absurd h1 hb
      · exact ⟨g, hg, hb⟩
    · rw [firstOf_unknown h1]

open Classical in
theorem mem_unique (l : List ℝ) (x : ℝ) : x ∈ uniqueNums l ↔ x ∈ l := by
  unfold uniqueNums
  rw [List.mem_dedup, List.mem_mergeSort]

open Classical in
theorem unique_sorted (l : List ℝ) : (uniqueNums l).Pairwise (· < ·) := by
  have h1 : (uniqueNums l).Pairwise (· ≤ ·) := by
    unfold uniqueNums
    refine List.Pairwise.sublist (List.dedup_sublist _) ?_
    have := List.pairwise_mergeSort (le := fun a b : ℝ => decide (a ≤ b)) (fun a b c h1 h2 => by simp only [decide_eq_true_eq] at *; linarith)
      (fun a b => by simp only [Bool.or_eq_true, decide_eq_true_eq]; exact le_total a b) l
    exact this.imp fun h => by simpa using h
  have h2 : (uniqueNums l).Nodup := List.nodup_dedup _
  exact (h1.and h2).imp fun h => lt_of_le_of_ne h.1 h.2

theorem rank_eq (l : List ℝ) : ∀ (j : Nat) (p : ℝ), (uniqueNums l)[j]? = some p → {q | q ∈ l ∧ q < p}.ncard = j := by
  classical
  intro j p hj
  have hs := unique_sorted l
  have hjl : j < (uniqueNums l).length := (List.getElem?_eq_some_iff.1 hj).1
  have hset : {q | q ∈ l ∧ q < p} = (((uniqueNums l).take j).toFinset : Set ℝ) := by
    ext q
    simp only [Set.mem_setOf_eq, List.coe_toFinset]
    rw [List.mem_take_iff_getElem]
    constructor
    · rintro ⟨h1, h2⟩
      obtain ⟨k, hk, rfl⟩ := List.mem_iff_getElem.1 ((mem_unique l q).2 h1)
      refine ⟨k, ?_, rfl⟩
      rw [lt_min_iff]
      refine ⟨?_, hk⟩
      by_contra hge
      obtain ⟨_, rfl⟩ := List.getElem?_eq_some_iff.1 hj
      rcases Nat.eq_or_lt_of_le (not_lt.1 hge) with h | h
      · subst h; exact lt_irrefl _ h2
      · exact lt_asymm h2 (List.pairwise_iff_getElem.1 hs _ _ _ _ h)
    · rintro ⟨k, hk, rfl⟩
      rw [lt_min_iff] at hk
      obtain ⟨_, rfl⟩ := List.getElem?_eq_some_iff.1 hj
      exact ⟨(mem_unique l _).1 (List.getElem_mem _), List.pairwise_iff_getElem.1 hs _ _ _ _ hk.1⟩
  rw [hset, Set.ncard_coe_finset, List.toFinset_card_of_nodup]
  · rw [List.length_take]; omega
  · exact (List.take_sublist _ _).nodup (hs.imp fun h => ne_of_lt h)

theorem passLoop_eq (passes : List ℝ) : ∀ (ps : List ℝ) (i : Nat) (a : Added), ps.Nodup → a.time.length = passes.length →
    ∃ T, passLoop passes ps i a = { a with time := T } ∧ T.length = passes.length ∧ ∀ (k : Nat) (p : ℝ), passes[k]? = some p →
      (∀ j : Nat, ps[j]? = some p → T[k]? = some (61304 + 5 * ((i + j : Nat) : ℝ))) ∧ (p ∉ ps → T[k]? = a.time[k]?)
  | [], i, a, _, h => ⟨a.time, rfl, h, fun k p _ => ⟨fun j hj => by simp at hj, fun _ => rfl⟩⟩
  | q :: ps, i, a, hn, h => by
    classical
    rw [List.nodup_cons] at hn
    obtain ⟨T, h1, h2, h3⟩ := passLoop_eq passes ps (i + 1) { a with time := put passes q (61304 + 5 * (i : ℝ)) a.time } hn.2 (put_length passes q _ _ h)
    refine ⟨T, ?_, h2, fun k p hk => ?_⟩
    · unfold passLoop; rw [h1]
    · obtain ⟨h4, h5⟩ := h3 k p hk
      have hi : k < a.time.length := by rw [h]; exact (List.getElem?_eq_some_iff.1 hk).1
      obtain ⟨p1, p2⟩ := put_get passes q (61304 + 5 * (i : ℝ)) a.time k p a.time[k] hk (List.getElem?_eq_getElem hi)
      constructor
      · intro j hj
        cases j with
        | zero =>
          simp only [List.getElem?_cons_zero, Option.some.injEq] at hj
          subst hj
          rw [h5 hn.1, Nat.add_zero]
          exact p1 rfl
        | succ j =>
          rw [List.getElem?_cons_succ] at hj
          rw [h4 j hj]
          congr 4
          omega
      · intro hm
        rw [List.mem_cons, not_or] at hm
        rw [h5 hm.2, List.getElem?_eq_getElem hi]
        exact p2 hm.1

/-- The names of the columns the class adds before the zero point. -/
def addedNames : List Name :=
  ["zp_abmag".toList, "N_Eff_Pix".toList, "zodi_countrate_min".toList, "thermal_countrate".toList, "time".toList, "exptime".toList]

theorem attach_other (cols : Dict Name (List Cell)) (a : Added) {c : Name} (h : c ∉ addedNames) : (attach cols a).get? c = cols.get? c := by
  unfold addedNames at h
  simp only [List.mem_cons, List.not_mem_nil, or_false, not_or] at h
  obtain ⟨h1, h2, h3, h4, h5, h6⟩ := h
  unfold attach
  rw [Dict.get?_set_ne _ _ (Ne.symm h6), Dict.get?_set_ne _ _ (Ne.symm h5), Dict.get?_set_ne _ _ (Ne.symm h4), Dict.get?_set_ne _ _ (Ne.symm h3),
    Dict.get?_set_ne _ _ (Ne.symm h2), Dict.get?_set_ne _ _ (Ne.symm h1)]

theorem attach_added (cols : Dict Name (List Cell)) (a : Added) :
    (attach cols a).get? "zp_abmag".toList = some (a.zp.map .num) ∧ (attach cols a).get? "N_Eff_Pix".toList = some (a.pix.map .num) ∧
    (attach cols a).get? "zodi_countrate_min".toList = some (a.zodi.map .num) ∧ (attach cols a).get? "thermal_countrate".toList = some (a.thermal.map .num) ∧
    (attach cols a).get? "time".toList = some (a.time.map .num) ∧ (attach cols a).get? "exptime".toList = some (a.exptime.map .num) := by
  unfold attach
  refine ⟨?_, ?_, ?_, ?_, ?_, ?_⟩
  · rw [Dict.get?_set_ne _ _ (by decide), Dict.get?_set_ne _ _ (by decide), Dict.get?_set_ne _ _ (by decide), Dict.get?_set_ne _ _ (by decide),
      Dict.get?_set_ne _ _ (by decide), Dict.get?_set_self]
  · rw [Dict.get?_set_ne _ _ (by decide), Dict.get?_set_ne _ _ (by decide), Dict.get?_set_ne _ _ (by decide), Dict.get?_set_ne _ _ (by decide),
      Dict.get?_set_self]
  · rw [Dict.get?_set_ne _ _ (by decide), Dict.get?_set_ne _ _ (by decide), Dict.get?_set_ne _ _ (by decide), Dict.get?_set_self]
  · rw [Dict.get?_set_ne _ _ (by decide), Dict.get?_set_ne _ _ (by decide), Dict.get?_set_self]
  · rw [Dict.get?_set_ne _ _ (by decide), Dict.get?_set_self]
  · rw [Dict.get?_set_self]

theorem attach_nodup {cols : Dict Name (List Cell)} (h : cols.keys.Nodup) (a : Added) : (attach cols a).keys.Nodup := by
  unfold attach
  exact Dict.nodup_set (Dict.nodup_set (Dict.nodup_set (Dict.nodup_set (Dict.nodup_set (Dict.nodup_set h _ _) _ _) _ _) _ _) _ _) _ _

/-- The frame after a successful construction. -/
noncomputable def full (cols : Dict Name (List Cell)) (a : Added) : Dict Name (List Cell) :=
  (attach cols a).set "zp_nJy".toList ((a.zp.map mag2flux).map .num)

/-- The columns of a frame that the class uses. -/
structure Input (f : Frame) (ras decs : List ℝ) (bands : List Name) (nums passes : List ℝ) : Prop where
  nodup : f.cols.keys.Nodup
  ra : f.cols.get? "RA".toList = some (ras.map .num)
  dec : f.cols.get? "DEC".toList = some (decs.map .num)
  band : f.cols.get? "BANDPASS".toList = some (bands.map .str)
  num : f.cols.get? "MA_TABLE_NUMBER".toList = some (nums.map .num)
  pass : f.cols.get? "PASS".toList = some (passes.map .num)
  lens : ∀ q ∈ f.cols, q.2.length = f.labels.length

theorem Input.lengths {f : Frame} {ras decs bands nums passes} (I : Input f ras decs bands nums passes) :
    ras.length = f.labels.length ∧ decs.length = f.labels.length ∧ bands.length = f.labels.length ∧ nums.length = f.labels.length ∧
    passes.length = f.labels.length := by
  have h1 := I.lens _ (Dict.mem_of_get? I.ra)
  have h2 := I.lens _ (Dict.mem_of_get? I.dec)
  have h3 := I.lens _ (Dict.mem_of_get? I.band)
  have h4 := I.lens _ (Dict.mem_of_get? I.num)
  have h5 := I.lens _ (Dict.mem_of_get? I.pass)
  simp only [List.length_map] at h1 h2 h3 h4 h5
  exact ⟨h1, h2, h3, h4, h5⟩

theorem attr_num {cols : Dict Name (List Cell)} {name : Name} {l : List ℝ} (h : cols.get? name = some (l.map .num)) :
    attrCol Cell.num? cols name = .ok l := by
  unfold attrCol
  rw [h]
  exact mapM_num_ok.2 rfl

theorem attr_str {cols : Dict Name (List Cell)} {name : Name} {l : List Name} (h : cols.get? name = some (l.map .str)) :
    attrCol Cell.str? cols name = .ok l := by
  unfold attrCol
  rw [h]
  exact mapM_str l

/-- What the loops compute. -/
noncomputable def computed (ch : Chars) (ma : List (ℝ × ℝ)) (n : Nat) (bands : List Name) (nums passes : List ℝ) : Added :=
  passLoop passes (uniqueNums passes) 0
    ⟨fill bands (valOf ch.zp) (npUnique bands) (List.replicate n 0), fill bands (valOf ch.pix) (npUnique bands) (List.replicate n 0),
      fill bands (valOf ch.zodi) (npUnique bands) (List.replicate n 0), fill bands (valOf ch.thermal) (npUnique bands) (List.replicate n 0),
      List.replicate n 0, fill nums (valOf ma) (uniqueNums nums) (List.replicate n 0)⟩

theorem append_ok (ch : Chars) (ma : List (ℝ × ℝ)) (n : Nat) (cols : Dict Name (List Cell)) {bands : List Name} {nums passes : List ℝ}
    (hb : cols.get? "BANDPASS".toList = some (bands.map .str)) (hm : cols.get? "MA_TABLE_NUMBER".toList = some (nums.map .num))
    (hp : cols.get? "PASS".toList = some (passes.map .num)) (kb : ∀ b ∈ bands, KnownBand ch b) (km : ∀ m ∈ nums, Knows ma m) :
    append ch ma n cols = (full cols (computed ch ma n bands nums passes), none) := by
  unfold append
  rw [attr_str (l := bands) (by rw [attach_other _ _ (by decide)]; exact hb)]
  dsimp only
  rw [bandLoop_ok ch bands _ _ fun b h => kb b ((BandfluxProps.mem_npUnique _ _).1 h)]
  dsimp only
  rw [attr_num (l := nums) (by rw [attach_other _ _ (by decide)]; exact hm)]
  dsimp only
  rw [maLoop_ok ma nums _ _ fun m h => km m ((mem_unique _ _).1 h)]
  dsimp only
  rw [attr_num (l := passes) (by rw [attach_other _ _ (by decide)]; exact hp)]
  rfl

/-- The values of a row. -/
theorem computed_rows (ch : Chars) (ma : List (ℝ × ℝ)) {n : Nat} {bands : List Name} {nums passes : List ℝ} (lb : bands.length = n) (lm : nums.length = n)
    (lp : passes.length = n) (kb : ∀ b ∈ bands, KnownBand ch b) (km : ∀ m ∈ nums, Knows ma m) {i : Nat} (hi : i < n) :
    ∃ b m p z x o t e, bands[i]? = some b ∧ nums[i]? = some m ∧ passes[i]? = some p ∧ FirstRow ch.zp b z ∧ FirstRow ch.pix b x ∧ FirstRow ch.zodi b o ∧
      FirstRow ch.thermal b t ∧ FirstRow ma m e ∧ (computed ch ma n bands nums passes).zp[i]? = some z ∧
      (computed ch ma n bands nums passes).pix[i]? = some x ∧ (computed ch ma n bands nums passes).zodi[i]? = some o ∧
      (computed ch ma n bands nums passes).thermal[i]? = some t ∧ (computed ch ma n bands nums passes).exptime[i]? = some e ∧
      (computed ch ma n bands nums passes).time[i]? = some (61304 + 5 * ({q | q ∈ passes ∧ q < p}.ncard : ℝ)) := by
  have eb : bands[i]? = some bands[i] := List.getElem?_eq_getElem (by omega)
  have em : nums[i]? = some nums[i] := List.getElem?_eq_getElem (by omega)
  have ep : passes[i]? = some passes[i] := List.getElem?_eq_getElem (by omega)
  have hb : bands[i] ∈ npUnique bands := (BandfluxProps.mem_npUnique _ _).2 (List.getElem_mem _)
  have hm : nums[i] ∈ uniqueNums nums := (mem_unique _ _).2 (List.getElem_mem _)
  have hp : passes[i] ∈ uniqueNums passes := (mem_unique _ _).2 (List.getElem_mem _)
  obtain ⟨k1, k2, k3, k4⟩ := kb _ (List.getElem_mem (l := bands) (n := i) (by omega))
  have k5 := km _ (List.getElem_mem (l := nums) (n := i) (by omega))
  obtain ⟨T, h1, h2, h3⟩ := passLoop_eq passes (uniqueNums passes) 0
    ⟨fill bands (valOf ch.zp) (npUnique bands) (List.replicate n 0), fill bands (valOf ch.pix) (npUnique bands) (List.replicate n 0),
      fill bands (valOf ch.zodi) (npUnique bands) (List.replicate n 0), fill bands (valOf ch.thermal) (npUnique bands) (List.replicate n 0),
      List.replicate n 0, fill nums (valOf ma) (uniqueNums nums) (List.replicate n 0)⟩ ((unique_sorted passes).imp fun h => ne_of_lt h)
    (by simp [lp])
  obtain ⟨j, hj, hj'⟩ := List.mem_iff_getElem.1 hp
  have hj2 : (uniqueNums passes)[j]? = some passes[i] := by rw [List.getElem?_eq_getElem hj, hj']
  have ht := (h3 i _ ep).1 j hj2
  unfold computed
  rw [h1]
  refine ⟨bands[i], nums[i], passes[i], _, _, _, _, _, eb, em, ep, (firstOf_val k1).2, (firstOf_val k2).2, (firstOf_val k3).2, (firstOf_val k4).2,
    (firstOf_val k5).2, ((fill_get bands _ _ _ (by simp [lb])).2 i _ eb).1 hb, ((fill_get bands _ _ _ (by simp [lb])).2 i _ eb).1 hb,
    ((fill_get bands _ _ _ (by simp [lb])).2 i _ eb).1 hb, ((fill_get bands _ _ _ (by simp [lb])).2 i _ eb).1 hb,
    ((fill_get nums _ _ _ (by simp [lm])).2 i _ em).1 hm, ?_⟩
  rw [rank_eq passes j _ hj2, ht, Nat.zero_add]

theorem computed_lengths (ch : Chars) (ma : List (ℝ × ℝ)) {n : Nat} {bands : List Name} {nums passes : List ℝ} (lb : bands.length = n)
    (lm : nums.length = n) (lp : passes.length = n) : (computed ch ma n bands nums passes).zp.length = n ∧ (computed ch ma n bands nums passes).pix.length = n ∧
    (computed ch ma n bands nums passes).zodi.length = n ∧ (computed ch ma n bands nums passes).thermal.length = n ∧
    (computed ch ma n bands nums passes).time.length = n ∧ (computed ch ma n bands nums passes).exptime.length = n := by
  obtain ⟨T, h1, h2, h3⟩ := passLoop_eq passes (uniqueNums passes) 0
    ⟨fill bands (valOf ch.zp) (npUnique bands) (List.replicate n 0), fill bands (valOf ch.pix) (npUnique bands) (List.replicate n 0),
      fill bands (valOf ch.zodi) (npUnique bands) (List.replicate n 0), fill bands (valOf ch.thermal) (npUnique bands) (List.replicate n 0),
      List.replicate n 0, fill nums (valOf ma) (uniqueNums nums) (List.replicate n 0)⟩ ((unique_sorted passes).imp fun h => ne_of_lt h)
    (by simp [lp])
  unfold computed
  rw [h1]
  exact ⟨by rw [(fill_get bands _ _ _ (by simp [lb])).1, lb], by rw [(fill_get bands _ _ _ (by simp [lb])).1, lb],
    by rw [(fill_get bands _ _ _ (by simp [lb])).1, lb], by rw [(fill_get bands _ _ _ (by simp [lb])).1, lb], by rw [h2, lp],
    by rw [(fill_get nums _ _ _ (by simp [lm])).1, lm]⟩

/-- The renaming of the class. -/
def romanNames : Dict Name Name :=
  [("DEC".toList, "dec".toList), ("BANDPASS".toList, "filter".toList), ("RA".toList, "ra".toList), ("zp_nJy".toList, "zp".toList),
   ("time".toList, "time".toList)]

theorem roman_remap {columns : List Name} (h : ∀ c ∈ ["DEC".toList, "BANDPASS".toList, "RA".toList, "zp_nJy".toList, "time".toList], c ∈ columns)
    (hfree : ∀ c ∈ ["ra".toList, "dec".toList, "filter".toList, "zp".toList], c ∉ columns) :
    remap columns romanClass.colmap [] [] = .ok (romanNames, romanNames) := by
  show remap columns [("dec".toList, "DEC".toList), ("filter".toList, "BANDPASS".toList), ("ra".toList, "RA".toList), ("zp".toList, "zp_nJy".toList),
       ("time".toList, "time".toList)] [] [] = _
  simp only [remap]
  rw [if_pos (h _ (by simp)), if_neg (fun e => hfree _ (by simp) e.1), if_pos (h _ (by simp)), if_neg (fun e => hfree _ (by simp) e.1),
    if_pos (h _ (by simp)), if_neg (fun e => hfree _ (by simp) e.1), if_pos (h _ (by simp)), if_neg (fun e => hfree _ (by simp) e.1),
    if_pos (h _ (by simp)), if_neg (fun e => e.2 rfl)]
  rfl

/-- The constructor of the base class on a complete frame. -/
theorem roman_construct {f : Frame} {ras decs : List ℝ} {bands : List Name} {zs ts : List Cell} (hnd : f.cols.keys.Nodup)
    (h1 : f.cols.get? "RA".toList = some (ras.map .num)) (h2 : f.cols.get? "DEC".toList = some (decs.map .num))
    (h3 : f.cols.get? "BANDPASS".toList = some (bands.map .str)) (h4 : f.cols.get? "zp_nJy".toList = some zs)
    (h5 : f.cols.get? "time".toList = some ts) (hfree : ∀ c ∈ ["ra".toList, "dec".toList, "filter".toList, "zp".toList], c ∉ f.cols.keys)
    (kw : Dict Name SVal) (fp) :
    construct romanClass f none kw fp = .ok ⟨rename romanNames f.cols, f.labels, romanNames, mergeSurvey romanClass.defaults f.attrs kw, npUnique bands,
      List.zipWith toCart ras decs, fp⟩ ∧
    ∀ c d, f.cols.get? c = some d → (rename romanNames f.cols).get? ((romanNames.get? c).getD c) = some d := by
  have hk : ∀ {c d}, f.cols.get? c = some d → c ∈ f.cols.keys := by
    intro c d h
    by_contra hc
    rw [(Dict.get?_eq_none_iff f.cols c).2 hc] at h
    cases h
  have hr := roman_remap (columns := f.cols.keys) (by
    intro c hc
    simp only [List.mem_cons, List.not_mem_nil, or_false] at hc
    rcases hc with rfl | rfl | rfl | rfl | rfl
    · exact hk h2
    · exact hk h3
    · exact hk h1
    · exact hk h4
    · exact hk h5) hfree
  have hget : ∀ c d, f.cols.get? c = some d → (rename romanNames f.cols).get? ((romanNames.get? c).getD c) = some d := fun c d h =>
    get?_rename hnd (by decide) hr (Dict.mem_of_get? h)
  refine ⟨?_, hget⟩
  have g1 : (rename romanNames f.cols).get? "ra".toList = some (ras.map .num) := hget _ _ h1
  have g2 : (rename romanNames f.cols).get? "dec".toList = some (decs.map .num) := hget _ _ h2
  have g3 : (rename romanNames f.cols).get? "filter".toList = some (bands.map .str) := hget _ _ h3
  have g4 : (rename romanNames f.cols).get? "zp".toList = some zs := hget _ _ h4
  have g5 : (rename romanNames f.cols).get? "time".toList = some ts := hget _ _ h5
  unfold construct ObsTable.init
  rw [show chosenMap romanClass none = romanClass.colmap from rfl, hr]
  dsimp only
  have hreq : (romanClass.required.all fun c => (rename romanNames f.cols).has c) = true := by
    show (["ra".toList, "dec".toList, "time".toList].all fun c => (rename romanNames f.cols).has c) = true
    simp only [List.all_cons, List.all_nil, Dict.has, g1, g2, g5]
    rfl
  rw [if_pos hreq]
  have hf : uniqueFilters (rename romanNames f.cols) = .ok (npUnique bands) := by
    unfold uniqueFilters
    rw [g3]
    dsimp only
    rw [mapM_str]
  rw [hf]
  dsimp only
  have hcont : ∀ u : ObsTable, u.cols = rename romanNames f.cols → u.contains "zp".toList = true := by
    intro u hu
    unfold ObsTable.contains
    rw [hu, if_pos]
    unfold Dict.has
    rw [g4]
    rfl
  rw [hcont _ rfl, if_pos rfl]
  dsimp only
  unfold buildTree
  rw [numCol_ok.2 g1]
  dsimp only
  rw [numCol_ok.2 g2]

theorem full_other (cols : Dict Name (List Cell)) (a : Added) {c : Name} (h : c ∉ addedNames) (h' : c ≠ "zp_nJy".toList) :
    (full cols a).get? c = cols.get? c := by
  unfold full
  rw [Dict.get?_set_ne _ _ (Ne.symm h'), attach_other _ _ h]

theorem full_added (cols : Dict Name (List Cell)) (a : Added) {c : Name} (h : c ∈ addedNames) : (full cols a).get? c = (attach cols a).get? c := by
  unfold full
  rw [Dict.get?_set_ne]
  rintro rfl
  revert h
  decide

theorem full_nodup {cols : Dict Name (List Cell)} (h : cols.keys.Nodup) (a : Added) : (full cols a).keys.Nodup := Dict.nodup_set (attach_nodup h a) _ _

theorem full_free {cols : Dict Name (List Cell)} {c : Name} (a : Added) (h : c ∉ addedNames) (h' : c ≠ "zp_nJy".toList) (hc : c ∉ cols.keys) :
    c ∉ (full cols a).keys := by
  rw [← Dict.get?_eq_none_iff] at hc ⊢
  rw [full_other _ _ h h', hc]

/-- **C106.** For every frame with the columns the class uses (and none called `ra`, `dec`, `filter` or `zp`), whose filters and MA table numbers are
known, a `RomanObsTable` can be made. It has the same rows, and each row has: its own position and filter; the zero point, the number of pixels and the
background rates of its filter; the exposure time of its MA table number; and as time day 61304 plus five days for each earlier pass of the survey. All
other columns are those of the frame. -/
theorem C106_rows (W : World) {ma : List (ℝ × ℝ)} {ch : Chars} (hma : W.ma = .ok ma) (hch : W.chars = .ok ch) (f : Frame) {ras decs : List ℝ}
    {bands : List Name} {nums passes : List ℝ} (I : Input f ras decs bands nums passes)
    (hfree : ∀ c ∈ ["ra".toList, "dec".toList, "filter".toList, "zp".toList], c ∉ f.cols.keys)
    (kb : ∀ b ∈ bands, KnownBand ch b) (km : ∀ m ∈ nums, Knows ma m) (kw : Dict Name SVal) (fp) :
    ∃ f' t, romanInit W f none none kw fp = (f', .ok t) ∧ t.labels = f.labels ∧
      (∀ i < f.labels.length, ∃ b m p z x o b' e, bands[i]? = some b ∧ nums[i]? = some m ∧ passes[i]? = some p ∧
        FirstRow ch.zp b z ∧ FirstRow ch.pix b x ∧ FirstRow ch.zodi b o ∧ FirstRow ch.thermal b b' ∧ FirstRow ma m e ∧
        rowNum t "ra".toList i = ras[i]? ∧ rowNum t "dec".toList i = decs[i]? ∧ rowStr t "filter".toList i = some b ∧
        rowNum t "zp_abmag".toList i = some z ∧ rowNum t "zp".toList i = some ((10 : ℝ) ^ (-0.4 * (z - 31.4))) ∧
        rowNum t "N_Eff_Pix".toList i = some x ∧ rowNum t "zodi_countrate_min".toList i = some o ∧ rowNum t "thermal_countrate".toList i = some b' ∧
        rowNum t "exptime".toList i = some e ∧ rowNum t "time".toList i = some (61304 + 5 * ({q | q ∈ passes ∧ q < p}.ncard : ℝ))) ∧
      ∀ c d, c ∉ ["RA".toList, "DEC".toList, "BANDPASS".toList, "zp_nJy".toList] → c ∉ addedNames → f.cols.get? c = some d → t.cols.get? c = some d := by
  obtain ⟨l1, l2, l3, l4, l5⟩ := I.lengths
  have hap := append_ok ch ma f.labels.length f.cols I.band I.num I.pass kb km
  generalize ha : computed ch ma f.labels.length bands nums passes = a at hap
  have hrows := fun i (hi : i < f.labels.length) => computed_rows ch ma l3 l4 l5 kb km hi
  rw [ha] at hrows
  obtain ⟨a1, a2, a3, a4, a5, a6⟩ := attach_added f.cols a
  have F1 : (full f.cols a).get? "zp_abmag".toList = some (a.zp.map .num) := by rw [full_added _ _ (by decide), a1]
  have F2 : (full f.cols a).get? "N_Eff_Pix".toList = some (a.pix.map .num) := by rw [full_added _ _ (by decide), a2]
  have F3 : (full f.cols a).get? "zodi_countrate_min".toList = some (a.zodi.map .num) := by rw [full_added _ _ (by decide), a3]
  have F4 : (full f.cols a).get? "thermal_countrate".toList = some (a.thermal.map .num) := by rw [full_added _ _ (by decide), a4]
  have F5 : (full f.cols a).get? "time".toList = some (a.time.map .num) := by rw [full_added _ _ (by decide), a5]
  have F6 : (full f.cols a).get? "exptime".toList = some (a.exptime.map .num) := by rw [full_added _ _ (by decide), a6]
  have F7 : (full f.cols a).get? "zp_nJy".toList = some ((a.zp.map mag2flux).map .num) := by unfold full; rw [Dict.get?_set_self]
  have F8 : (full f.cols a).get? "RA".toList = some (ras.map .num) := by rw [full_other _ _ (by decide) (by decide), I.ra]
  have F9 : (full f.cols a).get? "DEC".toList = some (decs.map .num) := by rw [full_other _ _ (by decide) (by decide), I.dec]
  have F10 : (full f.cols a).get? "BANDPASS".toList = some (bands.map .str) := by rw [full_other _ _ (by decide) (by decide), I.band]
  obtain ⟨hcon, hget⟩ := roman_construct (f := { f with cols := full f.cols a }) (full_nodup I.nodup a) F8 F9 F10 F7 F5 (by
    intro c hc
    have := hfree c hc
    simp only [List.mem_cons, List.not_mem_nil, or_false] at hc
    rcases hc with rfl | rfl | rfl | rfl
    all_goals exact full_free a (by decide) (by decide) this) kw fp
  refine ⟨{ f with cols := full f.cols a }, ⟨rename romanNames (full f.cols a), f.labels, romanNames, mergeSurvey romanClass.defaults f.attrs kw,
    npUnique bands, List.zipWith toCart ras decs, fp⟩, ?_, rfl, ?_, ?_⟩
  · unfold romanInit
    rw [show maTable W.ma none = .ok ma from hma]
    dsimp only
    rw [hch]
    dsimp only
    rw [hap]
    dsimp only
    rw [hcon]
  · intro i hi
    obtain ⟨b, m, p, z, x, o, t, e, r1, r2, r3, r4, r5, r6, r7, r8, r9, r10, r11, r12, r13, r14⟩ := hrows i hi
    have num : ∀ (name c : Name) (l : List ℝ), (romanNames.get? name).getD name = c → (full f.cols a).get? name = some (l.map .num) →
        rowNum ⟨rename romanNames (full f.cols a), f.labels, romanNames, mergeSurvey romanClass.defaults f.attrs kw, npUnique bands,
          List.zipWith toCart ras decs, fp⟩ c i = l[i]? := by
      intro name c l hc hl
      apply rowNum_of
      rw [← hc]
      exact hget name _ hl
    refine ⟨b, m, p, z, x, o, t, e, r1, r2, r3, r4, r5, r6, r7, r8, num "RA".toList _ _ rfl F8, num "DEC".toList _ _ rfl F9, ?_,
      (num "zp_abmag".toList _ _ rfl F1).trans r9, ?_, (num "N_Eff_Pix".toList _ _ rfl F2).trans r10, (num "zodi_countrate_min".toList _ _ rfl F3).trans r11,
      (num "thermal_countrate".toList _ _ rfl F4).trans r12, (num "exptime".toList _ _ rfl F6).trans r13, (num "time".toList _ _ rfl F5).trans r14⟩
    · rw [rowStr_of (l := bands)]
      · exact r1
      · exact hget "BANDPASS".toList _ F10
    · rw [num "zp_nJy".toList "zp".toList _ rfl F7, List.getElem?_map, r9, Option.map_some]
      unfold mag2flux magAbZp
      norm_num
  · intro c d h1 h2 h3
    simp only [List.mem_cons, List.not_mem_nil, or_false, not_or] at h1
    have h4 : c ≠ "time".toList := fun e => h2 (by rw [e]; decide)
    have h5 : (romanNames.get? c).getD c = c := by
      have : romanNames.get? c = none := by
        rw [Dict.get?_eq_none_iff]
        show c ∉ ["DEC".toList, "BANDPASS".toList, "RA".toList, "zp_nJy".toList, "time".toList]
        simp only [List.mem_cons, List.not_mem_nil, or_false, not_or]
        exact ⟨h1.2.1, h1.2.2.1, h1.1, h1.2.2.2, h4⟩
      rw [this]
      rfl
    have := hget c d (by
      show (full f.cols a).get? c = some d
      rw [full_other _ _ h2 h1.2.2.2, h3])
    rw [h5] at this
    exact this

/-- **C106.** A table made from a frame without metadata and without keyword arguments searches the disc whose area is Roman's field of view, 0.28 square
degrees, and has the camera's constants. -/
theorem C106_survey (W : World) (f : Frame) (hf : f.attrs = none) (colmap fp) {f' : Frame} {t : ObsTable}
    (h : romanInit W f colmap none [] fp = (f', .ok t)) :
    (∃ r, t.radius = some r ∧ 0 < r ∧ π * r ^ 2 = 0.28) ∧ t.survey.get? "dark_current".toList = some (.num 0) ∧
    t.survey.get? "pixel_scale".toList = some (.num 0.11) ∧ t.survey.get? "zodi_level".toList = some (.num 1.5) := by
  have hs : t.survey = romanClass.defaults := by
    unfold romanInit at h
    cases hma : maTable W.ma none with
    | error e => rw [hma] at h; cases h
    | ok ma =>
      rw [hma] at h
      dsimp only at h
      cases hch : W.chars with
      | error e => rw [hch] at h; cases h
      | ok ch =>
        rw [hch] at h
        dsimp only at h
        generalize append ch ma f.labels.length f.cols = r at h
        obtain ⟨cols, er⟩ := r
        cases er with
        | some e => cases h
        | none =>
          dsimp only at h
          have h2 := congrArg Prod.snd h
          dsimp only at h2
          unfold construct at h2
          obtain ⟨_, _, _, _, _, _, _, hs, _⟩ := PersistProps.init_spec (C := romanClass)
            ⟨fun u u' h => by cases h; exact Or.inl rfl, (by decide : ["dark_current".toList, "pixel_scale".toList, "survey_name".toList, "radius".toList,
              "zodi_level".toList].Nodup), by decide⟩ h2
          rw [hs]
          dsimp only
          rw [hf]
          rfl
  have hr : t.radius = some (sqrt (0.28 / π)) := by
    unfold ObsTable.radius
    rw [hs]
    rfl
  refine ⟨⟨_, hr, Real.sqrt_pos.2 (by positivity), ?_⟩, by rw [hs]; rfl, by rw [hs]; rfl, by rw [hs]; rfl⟩
  rw [Real.sq_sqrt (by positivity)]
  field_simp

/-- **C106.** A filter that one of the tables does not know, or an MA table number that is not in its table: IndexError. -/
theorem C106_refused (W : World) {ma : List (ℝ × ℝ)} {ch : Chars} (hma : W.ma = .ok ma) (hch : W.chars = .ok ch) (f : Frame) {ras decs : List ℝ}
    {bands : List Name} {nums passes : List ℝ} (I : Input f ras decs bands nums passes)
    (h : (∃ b ∈ bands, ¬ KnownBand ch b) ∨ ∃ m ∈ nums, ¬ Knows ma m) (colmap kw fp) :
    (romanInit W f colmap none kw fp).2 = .error .indexError := by
  have hap : (append ch ma f.labels.length f.cols).2 = some .indexError := by
    classical
    unfold append
    rw [attr_str (l := bands) (by rw [attach_other _ _ (by decide)]; exact I.band)]
    dsimp only
    by_cases hb : ∃ b ∈ bands, ¬ KnownBand ch b
    · obtain ⟨b, h1, h2⟩ := hb
      rw [bandLoop_bad ch bands _ _ ⟨b, (BandfluxProps.mem_npUnique _ _).2 h1, h2⟩]
    · rw [bandLoop_ok ch bands _ _ fun b hm => by
        by_contra hk
        exact hb ⟨b, (BandfluxProps.mem_npUnique _ _).1 hm, hk⟩]
      dsimp only
      rw [attr_num (l := nums) (by rw [attach_other _ _ (by decide)]; exact I.num)]
      dsimp only
      obtain ⟨m, h1, h2⟩ := h.resolve_left hb
      rw [maLoop_bad ma nums _ _ ⟨m, (mem_unique _ _).2 h1, h2⟩]
  unfold romanInit
  rw [show maTable W.ma none = .ok ma from hma]
  dsimp only
  rw [hch]
  dsimp only
  rw [hap]

theorem set_same {ν : Type} : ∀ {d : Dict Name ν} {k : Name} {v : ν}, d.get? k = some v → d.set k v = d
  | [], k, v, h => by cases h
  | (k', v') :: d, k, v, h => by
    rw [Dict.get?_cons] at h
    by_cases e : k' = k
    · subst e
      simp only [if_true, Option.some.injEq] at h
      subst h
      simp [Dict.set]
    · rw [if_neg e] at h
      have := set_same h
      simp [Dict.set, e, this]

theorem attach_again (cols : Dict Name (List Cell)) (a : Added) : attach (full cols a) a = full cols a := by
  obtain ⟨a1, a2, a3, a4, a5, a6⟩ := attach_added cols a
  rw [attach, set_same (v := a.zp.map Cell.num), set_same (v := a.pix.map Cell.num), set_same (v := a.zodi.map Cell.num),
    set_same (v := a.thermal.map Cell.num), set_same (v := a.time.map Cell.num), set_same (v := a.exptime.map Cell.num)]
  all_goals rw [full_added _ _ (by decide)]
  all_goals assumption

/-- **C106.** A second table made from the same frame, which now has the added columns, is the same table; and the frame does not change again. -/
theorem C106_again (W : World) {ma : List (ℝ × ℝ)} {ch : Chars} (hma : W.ma = .ok ma) (hch : W.chars = .ok ch) (f : Frame) {ras decs : List ℝ}
    {bands : List Name} {nums passes : List ℝ} (I : Input f ras decs bands nums passes)
    (kb : ∀ b ∈ bands, KnownBand ch b) (km : ∀ m ∈ nums, Knows ma m) (colmap kw fp) :
    romanInit W (romanInit W f colmap none kw fp).1 colmap none kw fp = romanInit W f colmap none kw fp := by
  have key : ∀ g : Frame, g.labels = f.labels → g.cols.get? "BANDPASS".toList = some (bands.map .str) →
      g.cols.get? "MA_TABLE_NUMBER".toList = some (nums.map .num) → g.cols.get? "PASS".toList = some (passes.map .num) →
      romanInit W g colmap none kw fp = ({ g with cols := full g.cols (computed ch ma f.labels.length bands nums passes) },
        construct romanClass { g with cols := full g.cols (computed ch ma f.labels.length bands nums passes) } colmap kw fp) := by
    intro g hl h1 h2 h3
    unfold romanInit
    rw [show maTable W.ma none = .ok ma from hma]
    dsimp only
    rw [hch]
    dsimp only
    rw [append_ok ch ma g.labels.length g.cols h1 h2 h3 kb km, hl]
  rw [key f rfl I.band I.num I.pass]
  dsimp only
  rw [key]
  · dsimp only
    have : full (full f.cols (computed ch ma f.labels.length bands nums passes)) (computed ch ma f.labels.length bands nums passes) =
        full f.cols (computed ch ma f.labels.length bands nums passes) := by
      generalize computed ch ma f.labels.length bands nums passes = a
      rw [show full (full f.cols a) a = (attach (full f.cols a) a).set "zp_nJy".toList ((a.zp.map mag2flux).map .num) from rfl, attach_again f.cols]
      apply set_same
      unfold full
      rw [Dict.get?_set_self]
    rw [this]
  · rfl
  · exact (full_other _ _ (by decide) (by decide)).trans I.band
  · exact (full_other _ _ (by decide) (by decide)).trans I.num
  · exact (full_other _ _ (by decide) (by decide)).trans I.pass

/-- **C106, where the code falls short.** A path to an MA table can be given, but then no table can be made: for every frame the constructor raises
UnboundLocalError. -/
theorem C106_path_counterexample (W : World) (f : Frame) (colmap : Option (Dict Name Name)) (path : Name) (kw : Dict Name SVal) (fp) :
    romanInit W f colmap (some path) kw fp = (f, .error .unboundLocal) := rfl

/-- **C106, where the code falls short.** Every Roman table can be written to a parquet file, and none of these files can be read as a Roman table:
AttributeError, since the column `BANDPASS` has been renamed. -/
theorem C106_parquet_counterexample (W : World) (f : Frame) (kw : Dict Name SVal) (fp) {t : ObsTable}
    (h : (romanInit W f none none kw fp).2 = .ok t) :
    (writeParquet none t false).2 = none ∧ romanFromParquet W (writeParquet none t false).1 = .error .attributeError := by
  refine ⟨rfl, ?_⟩
  unfold romanInit at h
  cases hma : maTable W.ma none with
  | error e => rw [hma] at h; cases h
  | ok ma =>
    rw [hma] at h
    dsimp only at h
    cases hch : W.chars with
    | error e => rw [hch] at h; cases h
    | ok ch =>
      rw [hch] at h
      dsimp only at h
      generalize hr : append ch ma f.labels.length f.cols = r at h
      obtain ⟨cols, er⟩ := r
      cases er with
      | some e => cases h
      | none =>
        dsimp only at h
        have hgone : t.cols.get? "BANDPASS".toList = none := by
          unfold construct at h
          obtain ⟨nm, h1, h2, -⟩ := init_cols (fp := fp) (required := romanClass.required) h
          obtain ⟨s1, s2, s3⟩ := remap_spec cols.keys (chosenMap romanClass none) [] [] nm t.invColmap [] (by simp) (by simp) (by simp) h1
          simp only [List.nil_append] at s1 s3
          rw [Dict.get?_eq_none_iff, h2]
          intro hm
          obtain ⟨q, hq, hq'⟩ := List.mem_map.1 hm
          obtain ⟨q0, hq0, rfl⟩ := List.mem_map.1 hq
          dsimp only at hq'
          cases hc : nm.get? q0.1 with
          | some k =>
            rw [hc] at hq'
            simp only [Option.getD_some] at hq'
            subst hq'
            have := (s1 _ _ hc).1
            revert this
            show ("BANDPASS".toList, q0.1) ∉ [("dec".toList, "DEC".toList), ("filter".toList, "BANDPASS".toList), ("ra".toList, "RA".toList),
              ("zp".toList, "zp_nJy".toList), ("time".toList, "time".toList)]
            simp
          | none =>
            rw [hc] at hq'
            simp only [Option.getD_none] at hq'
            have hk : q0.1 ∈ cols.keys := List.mem_map.2 ⟨q0, hq0, rfl⟩
            have h5 := s2 _ hk
            rw [hc] at h5
            refine s3 "filter".toList "BANDPASS".toList ?_ (hq' ▸ h5)
            show _ ∈ [("dec".toList, "DEC".toList), ("filter".toList, "BANDPASS".toList), ("ra".toList, "RA".toList),
              ("zp".toList, "zp_nJy".toList), ("time".toList, "time".toList)]
            simp
        show (romanInit W ⟨t.cols, t.labels, some t.survey⟩ none none [] none).2 = _
        unfold romanInit
        rw [hma]
        dsimp only
        rw [hch]
        dsimp only
        have : append ch ma t.labels.length t.cols = (attach t.cols (zeros t.labels.length), some .attributeError) := by
          unfold append
          have : attrCol Cell.str? (attach t.cols (zeros t.labels.length)) "BANDPASS".toList = .error .attributeError := by
            unfold attrCol
            rw [attach_other _ _ (by decide), hgone]
          rw [this]
        rw [this]

/-! ## An example, and what happens to the caller's frame -/

/-- Two observations in two passes, the later one first; the caller's frame has observation times. -/
noncomputable def plan : Frame :=
  ⟨[("RA".toList, [.num 10, .num 20]), ("DEC".toList, [.num 0, .num 1]), ("BANDPASS".toList, [.str "F062".toList, .str "F146".toList]),
    ("MA_TABLE_NUMBER".toList, [.num 3, .num 3]), ("PASS".toList, [.num 8, .num 2]), ("time".toList, [.num 60001, .num 60000])], [0, 1], none⟩

/-- The characterisation of two filters. -/
def twoChars : Chars :=
  ⟨[("F062".toList, 26), ("F146".toList, 27)], [("F062".toList, 5), ("F146".toList, 7)], [("F062".toList, 1), ("F146".toList, 2)],
    [("F062".toList, 3), ("F146".toList, 4)]⟩

theorem plan_input : Input plan [10, 20] [0, 1] ["F062".toList, "F146".toList] [3, 3] [8, 2] := by
  refine ⟨by decide, rfl, rfl, rfl, rfl, rfl, ?_⟩
  intro q hq
  simp only [plan, List.mem_cons, List.not_mem_nil, or_false] at hq
  rcases hq with rfl | rfl | rfl | rfl | rfl | rfl <;> rfl

theorem plan_known : (∀ b ∈ ["F062".toList, "F146".toList], KnownBand twoChars b) ∧ ∀ m ∈ ([3, 3] : List ℝ), Knows [(3, (57 : ℝ))] m := by
  constructor
  · intro b hb
    simp only [List.mem_cons, List.not_mem_nil, or_false] at hb
    rcases hb with rfl | rfl
    · exact ⟨⟨26, by simp [twoChars]⟩, ⟨5, by simp [twoChars]⟩, ⟨1, by simp [twoChars]⟩, ⟨3, by simp [twoChars]⟩⟩
    · exact ⟨⟨27, by simp [twoChars]⟩, ⟨7, by simp [twoChars]⟩, ⟨2, by simp [twoChars]⟩, ⟨4, by simp [twoChars]⟩⟩
  · intro m hm
    simp only [List.mem_cons, List.not_mem_nil, or_false, or_self] at hm
    subst hm
    exact ⟨57, by simp⟩

theorem plan_free : ∀ c ∈ ["ra".toList, "dec".toList, "filter".toList, "zp".toList], c ∉ plan.cols.keys := by decide

/-- **C106, where the code falls short.** The caller's frame is changed: its own observation times are overwritten with those of the passes. -/
theorem C106_caller_counterexample : ∃ (W : World) (f f' : Frame) (t : ObsTable), romanInit W f none none [] none = (f', .ok t) ∧
    f.cols.get? "time".toList = some [.num 60001, .num 60000] ∧ f'.cols.get? "time".toList = some [.num 61309, .num 61304] := by
  obtain ⟨f', t, h, -, h2, -⟩ := C106_rows ⟨.ok [(3, 57)], .ok twoChars⟩ rfl rfl plan plan_input plan_free plan_known.1 plan_known.2 [] none
  refine ⟨⟨.ok [(3, 57)], .ok twoChars⟩, plan, f', t, h, rfl, ?_⟩
  have hf : f' = { plan with cols := full plan.cols (computed twoChars [(3, 57)] 2 ["F062".toList, "F146".toList] [3, 3] [8, 2]) } := by
    have := congrArg Prod.fst h
    refine Eq.trans this.symm ?_
    unfold romanInit
    dsimp only [maTable]
    rw [append_ok twoChars [(3, 57)] _ plan.cols plan_input.band plan_input.num plan_input.pass plan_known.1 plan_known.2]
    rfl
  rw [hf]
  dsimp only
  rw [full_added _ _ (by decide), (attach_added _ _).2.2.2.2.1]
  have hl := (computed_lengths twoChars [(3, 57)] (n := 2) (bands := ["F062".toList, "F146".toList]) (nums := [3, 3]) (passes := [8, 2]) rfl rfl rfl).2.2.2.2.1
  have r : ∀ i < 2, ∃ p, ([8, 2] : List ℝ)[i]? = some p ∧
      (computed twoChars [(3, 57)] 2 ["F062".toList, "F146".toList] [3, 3] [8, 2]).time[i]? =
        some (61304 + 5 * (({q | q ∈ ([8, 2] : List ℝ) ∧ q < p}.ncard : ℕ) : ℝ)) := by
    intro i hi
    obtain ⟨b, m, p, z, x, o, t, e, r1, r2, r3, r4, r5, r6, r7, r8, r9, r10, r11, r12, r13, r14⟩ :=
      computed_rows twoChars [(3, 57)] (n := 2) rfl rfl rfl plan_known.1 plan_known.2 (passes := [8, 2]) hi
    exact ⟨p, r3, r14⟩
  generalize (computed twoChars [(3, 57)] 2 ["F062".toList, "F146".toList] [3, 3] [8, 2]).time = T at hl r
  match T, hl with
  | [x, y], _ =>
    obtain ⟨p, hp, h0⟩ := r 0 (by norm_num)
    obtain ⟨q, hq, h1⟩ := r 1 (by norm_num)
    simp only [List.getElem?_cons_zero, List.getElem?_cons_succ, Option.some.injEq] at hp hq h0 h1
    subst hp hq
    have e1 : {q | q ∈ ([8, 2] : List ℝ) ∧ q < 8} = {2} := by
      ext q
      simp only [Set.mem_setOf_eq, List.mem_cons, List.not_mem_nil, or_false, Set.mem_singleton_iff]
      constructor
      · rintro ⟨rfl | rfl, h⟩
        · norm_num at h
        · rfl
      · rintro rfl; norm_num
    have e2 : {q | q ∈ ([8, 2] : List ℝ) ∧ q < 2} = ∅ := by
      ext q
      simp only [Set.mem_setOf_eq, List.mem_cons, List.not_mem_nil, or_false, Set.mem_empty_iff_false, iff_false]
      rintro ⟨rfl | rfl, h⟩ <;> norm_num at h
    rw [e1, Set.ncard_singleton] at h0
    rw [e2, Set.ncard_empty] at h1
    norm_num at h0 h1
    rw [h0, h1]
    rfl

end LCL.RomanProps
