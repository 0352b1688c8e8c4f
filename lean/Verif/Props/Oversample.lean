import Verif.Model.Oversample
import Verif.Lemmas.Physical
import Verif.Props.Bandfluxes
import Mathlib.Tactic.Linarith
import Mathlib.Tactic.FieldSimp
import Mathlib.Tactic.NormNum

/-!
# Property C56: oversampled survey tables
-/

namespace LCL.OversampleProps
open LCL LCL.PhysLemmas

variable {O : Type}

theorem tile_length (bands : List Name) (k : Nat) : (tile bands k).length = k * bands.length := by
  induction k with
  | zero => simp [tile]
  | succ k ih => simp only [tile, List.length_append, ih]; ring

theorem tile_get (bands : List Name) (k i : Nat) (h : i < k * bands.length) : (tile bands k)[i]? = bands[i % bands.length]? := by
  induction k generalizing i with
  | zero => simp at h
  | succ k ih =>
    unfold tile
    by_cases hi : i < bands.length
    · rw [List.getElem?_append_left hi, Nat.mod_eq_of_lt hi]
    · push Not at hi
      rw [List.getElem?_append_right hi, ih (i - bands.length) (by rw [Nat.succ_mul] at h; omega), Nat.mod_eq_sub_mod hi]

theorem darkest_spec (l : List (OvObs O)) : match darkest l with
    | none => l = []
    | some m => m ∈ l ∧ ∀ o ∈ l, o.sky ≤ m.sky := by
  induction l with
  | nil => simp [darkest]
  | cons o l ih =>
    unfold darkest
    cases hd : darkest l with
    | none => rw [hd] at ih; dsimp only at ih; subst ih; simp
    | some m =>
      rw [hd] at ih
      dsimp only at ih ⊢
      by_cases hc : m.sky ≤ o.sky
      · rw [if_pos hc]
        refine ⟨List.mem_cons_self, fun p hp => ?_⟩
        rcases List.mem_cons.1 hp with e | e
        · exact le_of_eq (by rw [e])
        · exact le_trans (ih.2 p e) hc
      · rw [if_neg hc]
        refine ⟨List.mem_cons_of_mem _ ih.1, fun p hp => ?_⟩
        rcases List.mem_cons.1 hp with e | e
        · rw [e]; exact (not_le.1 hc).le
        · exact ih.2 p e

/-- The strategies there are. -/
def IsStrategy (s : Name) : Prop := s = "darkest_sky".toList ∨ s = "random".toList

/-- The observation a row takes its other columns from. -/
def SourceOf (strategy : Name) (obs : List (OvObs O)) (band : Name) (o : OvObs O) : Prop :=
  o ∈ obs ∧ o.filter = band ∧ (strategy = "darkest_sky".toList → ∀ p ∈ obs, p.filter = band → p.sky ≤ o.sky)

theorem source_ok {strategy : Name} (hs : IsStrategy strategy) (pick : Name → Nat → Nat) {obs : List (OvObs O)} {band : Name}
    (hb : band ∈ obs.map (·.filter)) (k : Nat) : ∃ o, ovSource strategy pick obs band k = .ok o ∧ SourceOf strategy obs band o := by
  obtain ⟨p, hp, hpb⟩ := List.mem_map.1 hb
  have hne : p ∈ obs.filter fun o => decide (o.filter = band) := List.mem_filter.2 ⟨hp, by simpa using hpb⟩
  unfold ovSource
  by_cases hd : strategy = "darkest_sky".toList
  · rw [if_pos hd]
    have := darkest_spec (obs.filter fun o => decide (o.filter = band))
    cases h : darkest (obs.filter fun o => decide (o.filter = band)) with
    | none => rw [h] at this; dsimp only at this; rw [this] at hne; cases hne
    | some m =>
      rw [h] at this
      dsimp only at this
      refine ⟨m, rfl, (List.mem_filter.1 this.1).1, by simpa using (List.mem_filter.1 this.1).2, fun _ q hq hqb => ?_⟩
      exact this.2 q (List.mem_filter.2 ⟨hq, by simpa using hqb⟩)
  · rw [if_neg hd]
    have hr : strategy = "random".toList := by rcases hs with h | h; exact absurd h hd; exact h
    rw [if_pos hr]
    have hpos : 0 < (obs.filter fun o => decide (o.filter = band)).length := List.length_pos_of_mem hne
    have hlt := Nat.mod_lt (pick band k) hpos
    rw [List.getElem?_eq_getElem hlt]
    have hm := List.getElem_mem hlt
    exact ⟨_, rfl, (List.mem_filter.1 hm).1, by simpa using (List.mem_filter.1 hm).2, fun h => absurd h hd⟩

theorem rows_ok (maxId : Int) (ra dec : ℝ) {strategy : Name} (hs : IsStrategy strategy) (pick : Name → Nat → Nat) {obs : List (OvObs O)}
    (i : Nat) (used : List Name) (l : List (ℝ × Name)) (hb : ∀ x ∈ l, x.2 ∈ obs.map (·.filter)) :
    ∃ rows, ovRows maxId ra dec strategy pick obs i used l = .ok rows ∧ rows.length = l.length ∧
      ∀ (j : Nat) r, rows[j]? = some r → l[j]? = some (r.time, r.filter) ∧ r.id = maxId + 1 + (i + j : Nat) ∧ r.ra = ra ∧ r.dec = dec ∧
        ∃ o, SourceOf strategy obs r.filter o ∧ r.sky = o.sky ∧ r.other = o.other := by
  induction l generalizing i used with
  | nil => exact ⟨[], rfl, rfl, by simp⟩
  | cons x l ih =>
    obtain ⟨t, b⟩ := x
    obtain ⟨o, ho, hso⟩ := source_ok hs pick (hb (t, b) List.mem_cons_self) (used.count b)
    obtain ⟨rows, hr, hlen, hall⟩ := ih (i + 1) (used ++ [b]) (fun x hx => hb x (List.mem_cons_of_mem _ hx))
    refine ⟨⟨maxId + 1 + i, t, ra, dec, b, o.sky, o.other⟩ :: rows, ?_, by simp [hlen], ?_⟩
    · unfold ovRows
      dsimp only at ho
      rw [ho]
      dsimp only
      rw [hr]
    · intro j r hj
      cases j with
      | zero =>
        simp only [List.getElem?_cons_zero, Option.some.injEq] at hj
        subst hj
        exact ⟨rfl, by simp, rfl, rfl, o, hso, rfl, rfl⟩
      | succ j =>
        simp only [List.getElem?_cons_succ] at hj ⊢
        obtain ⟨h1, h2, h3⟩ := hall j r hj
        refine ⟨h1, ?_, h3⟩
        rw [h2]
        have : i + 1 + j = i + (j + 1) := by omega
        rw [this]

theorem arange_length (a b d : ℝ) : (ovArange a b d).length = (⌈(b - a) / d⌉).toNat := by simp [ovArange]

theorem arange_get {a b d : ℝ} {i : Nat} (h : i < (ovArange a b d).length) : (ovArange a b d)[i]? = some (a + i * d) := by
  rw [arange_length] at h
  unfold ovArange
  rw [List.getElem?_map, List.getElem?_range h]
  rfl

theorem arange_lt {a b d : ℝ} (hd : 0 < d) {i : Nat} (h : i < (ovArange a b d).length) : a + i * d < b := by
  rw [arange_length] at h
  have h1 : (i : Int) < ⌈(b - a) / d⌉ := by omega
  have h2 := Int.lt_ceil.1 h1
  rw [lt_div_iff₀ hd] at h2
  push_cast at h2
  linarith

/-- The bands asked for: all of those observed when none are given. -/
def Requested (obs : List (OvObs O)) (bands : Option (List Name)) (b : Name) : Prop :=
  match bands with
  | none => b ∈ obs.map (·.filter)
  | some bs => b ∈ bs

theorem ovBands_ok {obs : List (OvObs O)} {bands : Option (List Name)} (h : ∀ bs, bands = some bs → ∀ b ∈ bs, b ∈ obs.map (·.filter)) :
    ∃ bs, ovBands obs bands = .ok bs ∧ (∀ b, b ∈ bs ↔ Requested obs bands b) ∧ ∀ b ∈ bs, b ∈ obs.map (·.filter) := by
  cases bands with
  | none =>
    refine ⟨_, rfl, fun b => BandfluxProps.mem_npUnique _ _, fun b hb => (BandfluxProps.mem_npUnique _ _).1 hb⟩
  | some bs =>
    refine ⟨bs, ?_, fun b => Iff.rfl, h bs rfl⟩
    unfold ovBands
    dsimp only
    rw [if_pos (h bs rfl)]

/-- The start and the end of the new table. -/
def Bound (obs : List (OvObs O)) (given : Option ℝ) (extreme : ℝ → ℝ → Prop) (t : ℝ) : Prop :=
  match given with
  | some g => t = g
  | none => (∃ o ∈ obs, o.time = t) ∧ ∀ o ∈ obs, extreme t o.time

theorem start_bound {obs : List (OvObs O)} (hne : obs ≠ []) (g : Option ℝ) : Bound obs g (· ≤ ·) (g.getD (timeMin obs)) := by
  cases g with
  | some t => exact rfl
  | none =>
    unfold timeMin
    cases h : npMin (obs.map (·.time)) with
    | none => exact absurd (List.map_eq_nil_iff.1 (npMin_none h)) hne
    | some m =>
      obtain ⟨h1, h2⟩ := npMin_spec h
      exact ⟨by simpa using List.mem_map.1 h1, fun o ho => h2 _ (List.mem_map.2 ⟨o, ho, rfl⟩)⟩

theorem end_bound {obs : List (OvObs O)} (hne : obs ≠ []) (g : Option ℝ) : Bound obs g (· ≥ ·) (g.getD (timeMax obs)) := by
  cases g with
  | some t => exact rfl
  | none =>
    unfold timeMax
    cases h : npMax (obs.map (·.time)) with
    | none => exact absurd (List.map_eq_nil_iff.1 (npMax_none h)) hne
    | some m =>
      obtain ⟨h1, h2⟩ := npMax_spec h
      exact ⟨by simpa using List.mem_map.1 h1, fun o ho => h2 _ (List.mem_map.2 ⟨o, ho, rfl⟩)⟩

/-- **C56** (part): for every list of observations, every time range, every positive step, every list of observed bands and
both strategies, when the number of grid times is a multiple of the number of bands, there is a table. It has one row
for every time of the grid from the start (inclusive) to the end (exclusive), in order; the bands take turns; ids
follow the largest id of the survey and so are all new and distinct; the position is the pointing; every other column
comes from an observation of the pointing in that band, the darkest one for `darkest_sky`; and every requested band
appears.

Missing: the property asks for this whenever the range holds at least as many times as bands; see
`C56_divisibility_counterexample`. -/
theorem C56_table_partial (maxId : Int) (ra dec : ℝ) (obs : List (OvObs O)) (hne : obs ≠ []) {deltaT : ℝ} (hd : 0 < deltaT)
    (tmin tmax : Option ℝ) (bands : Option (List Name)) {strategy : Name} (hs : IsStrategy strategy) (pick : Name → Nat → Nat)
    (hbands : ∀ bs, bands = some bs → bs ≠ [] ∧ ∀ b ∈ bs, b ∈ obs.map (·.filter))
    (hrange : tmin.getD (timeMin obs) < tmax.getD (timeMax obs))
    (hdiv : ∀ bs, ovBands obs bands = .ok bs → bs.length ∣ (⌈(tmax.getD (timeMax obs) - tmin.getD (timeMin obs)) / deltaT⌉).toNat) :
    ∃ rows a b, oversample maxId ra dec obs deltaT tmin tmax bands strategy pick = .ok rows ∧
      Bound obs tmin (· ≤ ·) a ∧ Bound obs tmax (· ≥ ·) b ∧
      (∀ i : Nat, i < rows.length ↔ a + i * deltaT < b) ∧
      (∀ (i : Nat) r, rows[i]? = some r → r.time = a + i * deltaT ∧ r.id = maxId + 1 + i ∧ r.ra = ra ∧ r.dec = dec ∧
        Requested obs bands r.filter ∧ ∃ o, SourceOf strategy obs r.filter o ∧ r.sky = o.sky ∧ r.other = o.other) ∧
      (∀ f, Requested obs bands f → ∃ r ∈ rows, r.filter = f) ∧
      (∀ bs, bands = some bs → ∀ (i : Nat) r, rows[i]? = some r → bs[i % bs.length]? = some r.filter) := by
  obtain ⟨bs, hbs, hreq, hobs⟩ := ovBands_ok (fun bs h => (hbands bs h).2)
  have hdiv := hdiv bs hbs
  set a := tmin.getD (timeMin obs) with ha
  set b := tmax.getD (timeMax obs) with hb
  rw [← arange_length] at hdiv
  have hbs0 : 0 < bs.length := by
    cases hB : bands with
    | some bs' =>
      have := (hbands bs' hB).1
      rw [hB] at hreq
      obtain ⟨x, hx⟩ := List.exists_mem_of_ne_nil _ this
      exact List.length_pos_of_mem ((hreq x).2 hx)
    | none =>
      rw [hB] at hreq
      obtain ⟨x, hx⟩ := List.exists_mem_of_ne_nil _ hne
      exact List.length_pos_of_mem ((hreq x.filter).2 (List.mem_map.2 ⟨x, hx, rfl⟩))
  have hiff : ∀ i : Nat, i < (ovArange a b deltaT).length ↔ a + i * deltaT < b := by
    intro i
    refine ⟨arange_lt hd, fun h => ?_⟩
    rw [arange_length]
    have : (i : Int) < ⌈(b - a) / deltaT⌉ := by
      rw [Int.lt_ceil, lt_div_iff₀ hd]
      push_cast
      linarith
    omega
  have hn : 0 < (ovArange a b deltaT).length := by
    rw [hiff 0]; simpa using hrange
  obtain ⟨k, hk⟩ := hdiv
  have htl : (tile bs ((ovArange a b deltaT).length / bs.length)).length = (ovArange a b deltaT).length := by
    rw [tile_length, hk, Nat.mul_div_cancel_left _ hbs0, Nat.mul_comm]
  have hlook : ∀ (i : Nat) t f, ((ovArange a b deltaT).zip (tile bs ((ovArange a b deltaT).length / bs.length)))[i]? = some (t, f) →
      t = a + i * deltaT ∧ bs[i % bs.length]? = some f := by
    intro i t f h
    rw [List.getElem?_zip_eq_some] at h
    obtain ⟨h1, h2⟩ := h
    have hi : i < (ovArange a b deltaT).length := (List.getElem?_eq_some_iff.1 h1).1
    rw [arange_get hi] at h1
    dsimp only at h1 h2
    injection h1 with h1
    refine ⟨h1.symm, ?_⟩
    rw [tile_get _ _ _ (by rw [← tile_length, htl]; exact hi)] at h2
    exact h2
  obtain ⟨rows, hrows, hlen, hall⟩ := rows_ok maxId ra dec hs pick (obs := obs) 0 []
    ((ovArange a b deltaT).zip (tile bs ((ovArange a b deltaT).length / bs.length))) (by
      intro x hx
      obtain ⟨t, f⟩ := x
      obtain ⟨i, hi⟩ := List.mem_iff_getElem?.1 hx
      exact hobs f (List.mem_of_getElem? (hlook i t f hi).2))
  rw [List.length_zip, htl, Nat.min_self] at hlen
  have hget : ∀ (i : Nat), i < rows.length → ∃ r, rows[i]? = some r := fun i hi => ⟨_, List.getElem?_eq_getElem hi⟩
  have hrow : ∀ (i : Nat) r, rows[i]? = some r → r.time = a + i * deltaT ∧ bs[i % bs.length]? = some r.filter := by
    intro i r hr
    exact hlook i _ _ (hall i r hr).1
  refine ⟨rows, a, b, ?_, start_bound hne tmin, end_bound hne tmax, ?_, ?_, ?_, ?_⟩
  · unfold oversample
    rw [if_neg (by rw [List.length_eq_zero_iff]; exact hne), ← ha, ← hb, if_neg (not_le.2 hrange), hbs]
    dsimp only
    rw [if_neg hd.ne']
    unfold ovTable
    rw [if_neg (not_lt.2 (Nat.le_of_dvd hn ⟨k, hk⟩)), if_neg hbs0.ne', if_neg (not_not.2 htl), if_neg, hrows]
    rintro ⟨h1, h2⟩
    rcases hs with h | h
    · exact h1 h
    · exact h2 h
  · intro i; rw [hlen]; exact hiff i
  · intro i r hr
    obtain ⟨h1, h2, h3, h4, h5⟩ := hall i r hr
    refine ⟨(hrow i r hr).1, by rw [h2]; simp, h3, h4, (hreq _).1 (List.mem_of_getElem? (hrow i r hr).2), h5⟩
  · intro f hf
    obtain ⟨i, hi⟩ := List.mem_iff_getElem?.1 ((hreq f).2 hf)
    have hib : i < bs.length := (List.getElem?_eq_some_iff.1 hi).1
    have hlt : i < rows.length := by rw [hlen]; exact lt_of_lt_of_le hib (Nat.le_of_dvd hn ⟨k, hk⟩)
    obtain ⟨r, hr⟩ := hget i hlt
    refine ⟨r, List.mem_of_getElem? hr, ?_⟩
    have := (hrow i r hr).2
    rw [Nat.mod_eq_of_lt hib, hi] at this
    exact (Option.some.inj this).symm
  · intro bs' hB i r hr
    have e : bs' = bs := by
      rw [hB] at hbs
      unfold ovBands at hbs
      dsimp only at hbs
      split at hbs
      · injection hbs
      · cases hbs
    rw [e]
    exact (hrow i r hr).2

/-- **C56**: a call that succeeds had observations at the pointing, a start before the end, only observed bands, at least
as many grid times as bands and one of the two strategies: everything else is an error. And the number of bands divided
the number of grid times. -/
theorem C56_accepted {maxId : Int} {ra dec : ℝ} {obs : List (OvObs O)} {deltaT : ℝ} {tmin tmax : Option ℝ} {bands : Option (List Name)}
    {strategy : Name} {pick : Name → Nat → Nat} {rows : List (OvRow O)}
    (h : oversample maxId ra dec obs deltaT tmin tmax bands strategy pick = .ok rows) :
    obs ≠ [] ∧ tmin.getD (timeMin obs) < tmax.getD (timeMax obs) ∧ IsStrategy strategy ∧
      (∀ bs, bands = some bs → bs ≠ [] ∧ ∀ b ∈ bs, b ∈ obs.map (·.filter)) ∧
      ∃ bs, ovBands obs bands = .ok bs ∧
        bs.length ≤ (⌈(tmax.getD (timeMax obs) - tmin.getD (timeMin obs)) / deltaT⌉).toNat ∧
        bs.length ∣ (⌈(tmax.getD (timeMax obs) - tmin.getD (timeMin obs)) / deltaT⌉).toNat := by
  unfold oversample at h
  split at h
  · cases h
  rename_i h1
  split at h
  · cases h
  rename_i h2
  cases hb : ovBands obs bands with
  | error e => rw [hb] at h; cases h
  | ok bs =>
    rw [hb] at h
    dsimp only at h
    split at h
    · cases h
    unfold ovTable at h
    split at h
    · cases h
    rename_i h4
    split at h
    · cases h
    rename_i h5
    split at h
    · cases h
    rename_i h6
    split at h
    · cases h
    rename_i h7
    rw [not_not, tile_length] at h6
    rw [arange_length] at h4 h6
    refine ⟨by intro e; exact h1 (by simp [e]), not_le.1 h2, ?_, ?_, bs, rfl, not_lt.1 h4, ⟨_, ((Nat.mul_comm _ _).trans h6).symm⟩⟩
    · by_contra hc
      unfold IsStrategy at hc
      push Not at hc
      exact h7 hc
    · intro bs' e
      rw [e] at hb
      unfold ovBands at hb
      dsimp only at hb
      split at hb
      · rename_i hall
        injection hb with hb
        subst hb
        exact ⟨by intro e; exact h5 (by simp [e]), hall⟩
      · cases hb

/-- Two observations in the bands `g` and `r`. -/
def gr : List (OvObs Unit) := [⟨0, "g".toList, 21, ()⟩, ⟨1, "r".toList, 20, ()⟩]

theorem ceil3 : ⌈((3 : ℝ) - 0) / 1⌉ = 3 := by norm_num
theorem ceil4 : ⌈((4 : ℝ) - 0) / 1⌉ = 4 := by norm_num

/-- **C56**: the time range `[0, 3)` with step 1 holds three times, enough for the two bands, but there is no table: the bands
are repeated a whole number of times, which leaves two rows of filters for three times. -/
theorem C56_divisibility_counterexample :
    [(0 : ℝ), 1, 2] = ovArange 0 3 1 ∧ ["g".toList, "r".toList].length ≤ (ovArange 0 3 1).length ∧
    ∀ (pick : Name → Nat → Nat), oversample 7 200 (-50) gr 1 (some 0) (some 3) (some ["g".toList, "r".toList]) "darkest_sky".toList pick
      = .error .valueError := by
  have hl : (ovArange 0 3 1).length = 3 := by rw [arange_length, ceil3]; rfl
  refine ⟨?_, by rw [hl]; decide, fun pick => ?_⟩
  · unfold ovArange
    rw [ceil3]
    have : (List.range (3 : Int).toNat) = [0, 1, 2] := rfl
    rw [this]
    simp
  · unfold oversample
    rw [if_neg (by decide), if_neg (by norm_num)]
    have : ovBands gr (some ["g".toList, "r".toList]) = .ok ["g".toList, "r".toList] := by
      unfold ovBands
      dsimp only
      rw [if_pos (by decide)]
    rw [this]
    dsimp only
    rw [if_neg one_ne_zero]
    unfold ovTable
    simp only [Option.getD_some]
    rw [hl, if_neg (by decide), if_neg (by decide), if_pos (by decide)]

/-- The hypotheses of `C56_table_partial` are met: the range `[0, 4)`. -/
example (pick : Name → Nat → Nat) : ∃ rows, oversample 7 200 (-50) gr 1 (some 0) (some 4) (some ["g".toList, "r".toList]) "darkest_sky".toList pick
    = .ok rows ∧ ∃ r, rows[3]? = some r ∧ r.time = 3 ∧ r.id = 11 ∧ r.filter = "r".toList := by
  obtain ⟨rows, a, b, h, ha, hb, hlen, hrow, _, hf⟩ := C56_table_partial 7 200 (-50) gr (by decide) one_pos (some 0) (some 4) (some ["g".toList, "r".toList])
    (strategy := "darkest_sky".toList) (Or.inl rfl) pick
    (by intro bs e; injection e with e; subst e; exact ⟨by decide, by decide⟩) (by norm_num) (by
      intro bs e
      unfold ovBands at e
      dsimp only at e
      rw [if_pos (by decide)] at e
      injection e with e
      subst e
      simp only [Option.getD_some]
      rw [ceil4]
      decide)
  cases ha
  cases hb
  have h3 : 3 < rows.length := (hlen 3).2 (by norm_num)
  refine ⟨rows, h, rows[3], List.getElem?_eq_getElem h3, ?_, ?_, ?_⟩
  · rw [(hrow 3 _ (List.getElem?_eq_getElem h3)).1]; norm_num
  · rw [(hrow 3 _ (List.getElem?_eq_getElem h3)).2.1]; norm_num
  · have := hf _ rfl 3 _ (List.getElem?_eq_getElem h3)
    exact (Option.some.inj this).symm

end LCL.OversampleProps
