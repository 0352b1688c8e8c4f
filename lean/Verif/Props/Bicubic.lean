import Verif.Model.Bicubic
import Mathlib.Data.Rat.Floor
import Mathlib.Tactic.NormNum

/-!
# Property C48: bicubic interpolation
-/

namespace LCL.BicubicProps
open LCL
variable {K : Type} [Field K] [LinearOrder K] [IsStrictOrderedRing K] [FloorRing K]

/-- Steps of an axis: the differences between neighbours. -/
def IsStep (v : List K) (d : K) : Prop := ∃ (i : Nat) (a b : K), v[i]? = some a ∧ v[i + 1]? = some b ∧ d = b - a

/-- An axis whose spacing the interpolator judges rightly: all steps are equal, or two steps differ by more than
`1e-6`. -/
def Sound (v : List K) : Prop := (∃ h, ∀ d, IsStep v d → d = h) ∨ ∃ d d', IsStep v d ∧ IsStep v d' ∧ d' - d > 1 / 1000000

theorem stepSizes_mem (v : List K) (d : K) : d ∈ stepSizes v ↔ IsStep v d := by
  unfold stepSizes IsStep
  rw [List.mem_iff_getElem?]
  constructor
  · rintro ⟨i, hi⟩
    rw [List.getElem?_zipWith] at hi
    cases ha : v[i]? with
    | none => rw [ha] at hi; simp at hi
    | some a =>
      cases hb : v.tail[i]? with
      | none => rw [ha, hb] at hi; simp at hi
      | some b =>
        rw [ha, hb] at hi
        simp at hi
        exact ⟨i, a, b, ha, by rw [← List.getElem?_tail]; exact hb, hi.symm⟩
  · rintro ⟨i, a, b, ha, hb, rfl⟩
    refine ⟨i, ?_⟩
    rw [List.getElem?_zipWith, List.getElem?_tail, ha, hb]

theorem listMin_le {l : List K} {d : K} (h : d ∈ l) : listMin l ≤ d := by
  induction l with
  | nil => cases h
  | cons a l ih =>
    cases l with
    | nil => simp at h; simp [listMin, h]
    | cons b l =>
      simp only [listMin]
      rcases List.mem_cons.1 h with rfl | h
      · exact min_le_left _ _
      · exact le_trans (min_le_right _ _) (ih h)

theorem le_listMax {l : List K} {d : K} (h : d ∈ l) : d ≤ listMax l := by
  induction l with
  | nil => cases h
  | cons a l ih =>
    cases l with
    | nil => simp at h; simp [listMax, h]
    | cons b l =>
      simp only [listMax]
      rcases List.mem_cons.1 h with rfl | h
      · exact le_max_left _ _
      · exact le_trans (ih h) (le_max_right _ _)

theorem listMin_mem {l : List K} (h : l ≠ []) : listMin l ∈ l := by
  induction l with
  | nil => exact absurd rfl h
  | cons a l ih =>
    cases l with
    | nil => simp [listMin]
    | cons b l =>
      simp only [listMin]
      rcases min_choice a (listMin (b :: l)) with h | h
      · rw [h]; simp
      · rw [h]; exact List.mem_cons_of_mem _ (ih (by simp))

theorem listMax_mem {l : List K} (h : l ≠ []) : listMax l ∈ l := by
  induction l with
  | nil => exact absurd rfl h
  | cons a l ih =>
    cases l with
    | nil => simp [listMax]
    | cons b l =>
      simp only [listMax]
      rcases max_choice a (listMax (b :: l)) with h | h
      · rw [h]; simp
      · rw [h]; exact List.mem_cons_of_mem _ (ih (by simp))

/-- What an accepted axis is: at least three strictly increasing values. -/
theorem mkAxis_ok {v : List K} {a : BAxis K} (h : mkAxis v = .ok a) :
    a.values = v ∧ 3 ≤ v.length ∧ (∀ d, IsStep v d → 0 < d) ∧
    (a.step = none ∨ (listMax (stepSizes v) - listMin (stepSizes v) ≤ 1 / 1000000 ∧
      a.step = some (1 / 2 * listMin (stepSizes v) + 1 / 2 * listMax (stepSizes v)))) := by
  unfold mkAxis at h
  split at h
  · cases h
  rename_i h1
  split at h
  · cases h
  rename_i h2
  have hpos : ∀ d, IsStep v d → 0 < d := by
    intro d hd
    by_contra hn
    apply h2
    rw [List.any_eq_true]
    exact ⟨d, (stepSizes_mem v d).2 hd, by simpa using hn⟩
  split at h
  · injection h with h; subst h
    exact ⟨rfl, by omega, hpos, Or.inl rfl⟩
  · rename_i h3
    injection h with h; subst h
    exact ⟨rfl, by omega, hpos, Or.inr ⟨not_lt.1 h3, rfl⟩⟩

theorem mono {v : List K} (hp : ∀ d, IsStep v d → 0 < d) {i j : Nat} {a b : K} (hij : i < j) (ha : v[i]? = some a) (hb : v[j]? = some b) : a < b := by
  induction j generalizing b with
  | zero => omega
  | succ j ih =>
    have hj : j < v.length := by have := (List.getElem?_eq_some_iff.1 hb).1; omega
    have hc : v[j]? = some v[j] := List.getElem?_eq_getElem hj
    have hs := hp _ ⟨j, v[j], b, hc, hb, rfl⟩
    rcases Nat.lt_or_ge i j with h | h
    · have := ih h hc; linarith
    · have : i = j := by omega
      subst this
      rw [ha] at hc
      injection hc with hc
      rw [hc]; linarith

theorem mono_le {v : List K} (hp : ∀ d, IsStep v d → 0 < d) {i j : Nat} {a b : K} (hij : i ≤ j) (ha : v[i]? = some a) (hb : v[j]? = some b) : a ≤ b := by
  rcases Nat.lt_or_ge i j with h | h
  · exact (mono hp h ha hb).le
  · have : i = j := by omega
    subst this; rw [ha] at hb; injection hb with hb; exact hb.le

theorem searchRight_eq {v : List K} (hp : ∀ d, IsStep v d → 0 < d) {q a : K} {i : Nat} (ha : v[i]? = some a) (h1 : a ≤ q)
    (h2 : ∀ b, v[i + 1]? = some b → q < b) : searchRight v q = i + 1 := by
  unfold searchRight
  have hi := (List.getElem?_eq_some_iff.1 ha).1
  rcases Nat.lt_or_ge (i + 1) v.length with h | h
  · rw [takeWhile_length_iff _ _ _ h]
    constructor
    · intro j x hj hx
      rw [decide_eq_true_eq]
      exact le_trans (mono_le hp (by omega) hx ha) h1
    · intro x hx
      rw [decide_eq_false_iff_not, not_le]
      exact h2 x hx
  · have : v.takeWhile (fun x => decide (x ≤ q)) = v := by
      have tw : ∀ l : List K, (∀ x ∈ l, x ≤ q) → l.takeWhile (fun x => decide (x ≤ q)) = l := by
        intro l
        induction l with
        | nil => intro _; rfl
        | cons a l ih =>
          intro h
          rw [List.takeWhile_cons_of_pos (by simpa using h a (by simp)), ih (fun x hx => h x (List.mem_cons_of_mem _ hx))]
      refine tw v ?_
      intro x hx
      obtain ⟨j, hj⟩ := List.getElem?_of_mem hx
      have hjl := (List.getElem?_eq_some_iff.1 hj).1
      exact le_trans (mono_le hp (by omega) hj ha) h1
    rw [this]; omega

theorem regular_at {v : List K} {h : K} (hh : ∀ d, IsStep v d → d = h) {i : Nat} {a : K} (ha : v[i]? = some a) : a = v.headD 0 + i * h := by
  induction i generalizing a with
  | zero =>
    cases v with
    | nil => simp at ha
    | cons x v => simp at ha; simp [ha]
  | succ i ih =>
    have hi : i < v.length := by have := (List.getElem?_eq_some_iff.1 ha).1; omega
    have hc : v[i]? = some v[i] := List.getElem?_eq_getElem hi
    have h1 := ih hc
    have h2 := hh _ ⟨i, v[i], a, hc, ha, rfl⟩
    push_cast
    linarith

/-- On an axis judged rightly the search finds the cell of the query. -/
theorem search_eq {v : List K} {ax : BAxis K} (h : mkAxis v = .ok ax) (hs : Sound v) {q a : K} {i : Nat} (ha : v[i]? = some a) (h1 : a ≤ q)
    (h2 : ∀ b, v[i + 1]? = some b → q < b) (hlast : i + 1 = v.length → q = a) : ax.search q = i := by
  obtain ⟨hv, hl, hp, hst⟩ := mkAxis_ok h
  have hne : stepSizes v ≠ [] := by
    intro he
    have : (v[1] - v[0]) ∈ stepSizes v := (stepSizes_mem v _).2 ⟨0, v[0], v[1], List.getElem?_eq_getElem _, List.getElem?_eq_getElem _, rfl⟩
    rw [he] at this; cases this
  rcases hst with hst | ⟨hreg, hst⟩
  · unfold BAxis.search
    rw [hst, hv]
    dsimp only
    rw [searchRight_eq hp ha h1 h2]
    simp
  · rcases hs with ⟨d, hd⟩ | ⟨d, d', hd, hd', hgt⟩
    · have e1 := hd _ ((stepSizes_mem v _).1 (listMin_mem hne))
      have e2 := hd _ ((stepSizes_mem v _).1 (listMax_mem hne))
      have hdpos : 0 < d := by rw [← e1]; exact hp _ ((stepSizes_mem v _).1 (listMin_mem hne))
      unfold BAxis.search
      rw [hst, hv, e1, e2]
      dsimp only
      have ea := regular_at hd ha
      rw [Int.floor_eq_iff]
      have e3 : (1 / 2 * d + 1 / 2 * d) = d := by ring
      rw [e3]
      constructor
      · rw [le_div_iff₀ hdpos]; push_cast; linarith
      · rw [div_lt_iff₀ hdpos]
        push_cast
        have hil := (List.getElem?_eq_some_iff.1 ha).1
        rcases Nat.lt_or_ge (i + 1) v.length with hlt | hge
        · have hb : v[i + 1]? = some v[i + 1] := List.getElem?_eq_getElem hlt
          have eb := regular_at hd hb
          have := h2 _ hb
          push_cast at eb
          linarith
        · have := hlast (by omega)
          subst this
          nlinarith
    · have l1 := listMin_le ((stepSizes_mem v _).2 hd)
      have l2 := le_listMax ((stepSizes_mem v _).2 hd')
      linarith

theorem find_range {v : List K} {ax : BAxis K} (h : mkAxis v = .ok ax) (q : K) : 0 ≤ ax.find q ∧ ax.find q + 1 < v.length := by
  obtain ⟨hv, hl, _, _⟩ := mkAxis_ok h
  unfold BAxis.find clampHigh clampLow
  rw [hv]
  split <;> split <;> omega

/-- Every query within the bounds lies in a cell, and the search finds it; the last value counts to the last cell. -/
theorem find_cell {v : List K} {ax : BAxis K} (h : mkAxis v = .ok ax) (hs : Sound v) {q : K} (hb : ax.outside q = false) :
    ∃ (i : Nat) (a b : K), ax.find q = i ∧ v[i]? = some a ∧ v[i + 1]? = some b ∧ a < b ∧ a ≤ q ∧ q ≤ b ∧
      (q = b → i + 2 = v.length) := by
  obtain ⟨hv, hl, hp, hst⟩ := mkAxis_ok h
  unfold BAxis.outside at hb
  rw [hv, Bool.or_eq_false_iff, decide_eq_false_iff_not, decide_eq_false_iff_not, not_lt, not_lt] at hb
  obtain ⟨hb1, hb2⟩ := hb
  have h0 : v.headD 0 = v[0] := by cases v with
    | nil => simp at hl
    | cons x v => rfl
  have hn : v.getLastD 0 = v[v.length - 1] := by
    rw [List.getLastD_eq_getLast?, List.getLast?_eq_getElem?, List.getElem?_eq_getElem (by omega)]; rfl
  rw [h0] at hb1
  rw [hn] at hb2
  -- the last index whose value does not exceed the query
  have hex : ∃ i : Nat, i < v.length ∧ (∀ a, v[i]? = some a → a ≤ q) ∧ (∀ b, v[i + 1]? = some b → q < b) := by
    by_contra hcon
    have hall : ∀ i : Nat, i < v.length → ∀ a, v[i]? = some a → a ≤ q := by
      intro i
      induction i with
      | zero => intro h0 a ha; rw [List.getElem?_eq_getElem h0] at ha; injection ha with ha; rw [← ha]; exact hb1
      | succ i ih =>
        intro hi a ha
        by_contra hq
        apply hcon
        refine ⟨i, by omega, ih (by omega), ?_⟩
        intro b hb
        rw [ha] at hb; injection hb with hb; rw [← hb]; exact not_le.1 hq
    apply hcon
    refine ⟨v.length - 1, by omega, hall _ (by omega), ?_⟩
    intro b hb
    have := (List.getElem?_eq_some_iff.1 hb).1
    omega
  obtain ⟨i, hi, hle, hlt⟩ := hex
  have ha : v[i]? = some v[i] := List.getElem?_eq_getElem hi
  have hle := hle _ ha
  have hsr : ax.search q = i := search_eq h hs ha hle hlt (by
    intro hlast
    have : i = v.length - 1 := by omega
    subst this
    exact le_antisymm hb2 hle)
  rcases Nat.lt_or_ge (i + 1) v.length with hc | hc
  · have hb : v[i + 1]? = some v[i + 1] := List.getElem?_eq_getElem hc
    refine ⟨i, v[i], v[i + 1], ?_, ha, hb, mono hp (by omega) ha hb, hle, (hlt _ hb).le, fun e => absurd e (hlt _ hb).ne⟩
    unfold BAxis.find clampHigh clampLow
    rw [hsr, hv, if_neg (by omega), if_neg (by omega)]
  · have hi2 : i = v.length - 1 := by omega
    have hj : v.length - 2 + 1 < v.length := by omega
    have hb : v[v.length - 2 + 1]? = some v[v.length - 2 + 1] := List.getElem?_eq_getElem hj
    have ha' : v[v.length - 2]? = some v[v.length - 2] := List.getElem?_eq_getElem (by omega)
    have hlt' := mono hp (by omega) ha' hb
    have e : v[v.length - 2 + 1] = v[v.length - 1] := by
      have : v.length - 2 + 1 = v.length - 1 := by omega
      simp only [this]
    have hqe : v[v.length - 1] ≤ q := by
      have : v[i] = v[v.length - 1] := by simp only [hi2]
      rw [← this]; exact hle
    refine ⟨v.length - 2, v[v.length - 2], v[v.length - 2 + 1], ?_, ha', hb, hlt', ?_, ?_, fun _ => by omega⟩
    · unfold BAxis.find clampHigh clampLow
      rw [hsr, hv]
      split <;> split <;> omega
    · rw [e] at hlt'; linarith
    · rw [e]; exact hb2

/-- C48. The four weights of a query in a cell sum to one. -/
theorem C48_weights_sum (d : K) (h0 : -1 ≤ d) (h1 : d ≤ 0) : weight d (-1) + weight d 0 + weight d 1 + weight d 2 = 1 := by
  have e1 : |d + ((-1 : Int) : K)| = 1 - d := by rw [abs_of_nonpos (by push_cast; linarith)]; push_cast; ring
  have e2 : |d + ((0 : Int) : K)| = -d := by rw [abs_of_nonpos (by push_cast; linarith)]; push_cast; ring
  have e3 : |d + ((1 : Int) : K)| = d + 1 := by rw [abs_of_nonneg (by push_cast; linarith)]; push_cast; ring
  have e4 : |d + ((2 : Int) : K)| = d + 2 := by rw [abs_of_nonneg (by push_cast; linarith)]; push_cast; ring
  unfold weight kernel
  rw [e1, e2, e3, e4]
  rw [if_neg (not_lt.2 (by linarith : (1 - d : K) ≤ 2)), if_neg (not_lt.2 (by linarith : (1 : K) ≤ 1 - d)),
    if_neg (not_lt.2 (by linarith : (-d : K) ≤ 2)), if_neg (not_lt.2 (by linarith : (d + 1 : K) ≤ 2)),
    if_neg (not_lt.2 (by linarith : (d + 2 : K) ≤ 2)), if_neg (not_lt.2 (by linarith : (1 : K) ≤ d + 2))]
  rcases eq_or_lt_of_le h0 with h | h
  · subst h
    rw [if_neg (by norm_num), if_pos (by norm_num)]
    norm_num
  · rcases eq_or_lt_of_le h1 with h' | h'
    · subst h'
      rw [if_pos (by norm_num), if_neg (by norm_num)]
      norm_num
    · rw [if_pos (by linarith), if_pos (by linarith)]
      ring

/-- The weights at a grid point. -/
theorem weights_zero : weight (0 : K) (-1) = 0 ∧ weight (0 : K) 0 = 1 ∧ weight (0 : K) 1 = 0 ∧ weight (0 : K) 2 = 0 := by
  unfold weight kernel
  refine ⟨?_, ?_, ?_, ?_⟩
  · push_cast
    rw [zero_add, abs_neg, abs_one, if_neg (by norm_num), if_neg (by norm_num)]; norm_num
  · push_cast
    rw [zero_add, abs_zero, if_neg (by norm_num), if_pos (by norm_num)]; norm_num
  · push_cast
    rw [zero_add, abs_one, if_neg (by norm_num), if_neg (by norm_num)]; norm_num
  · push_cast
    rw [zero_add, abs_of_nonneg (by norm_num), if_neg (by norm_num), if_neg (by norm_num)]; norm_num

theorem mkBicubic_ok {x y : List K} {z : List (List K)} {b : Bicubic K} (h : mkBicubic x y z = .ok b) :
    mkAxis x = .ok b.x ∧ mkAxis y = .ok b.y ∧ b.z = z ∧ z.length = x.length ∧ ∀ r ∈ z, r.length = y.length := by
  unfold mkBicubic at h
  cases hx : mkAxis x with
  | error e => rw [hx] at h; cases h
  | ok ax =>
    rw [hx] at h
    cases hy : mkAxis y with
    | error e => rw [hy] at h; cases h
    | ok ay =>
      rw [hy] at h
      dsimp only at h
      split at h
      · cases h
      · rename_i hz
        injection h with h
        subst h
        rw [not_or, not_not] at hz
        refine ⟨rfl, rfl, rfl, hz.1, ?_⟩
        intro r hr
        by_contra hn
        apply hz.2
        rw [List.any_eq_true]
        exact ⟨r, hr, by simpa using hn⟩

theorem zAt_some {z : List (List K)} {n m : Nat} (hz : z.length = n) (hr : ∀ r ∈ z, r.length = m) {i j : Int} (hi : 0 ≤ i ∧ i < n) (hj : 0 ≤ j ∧ j < m) :
    ∃ r c, z[i.toNat]? = some r ∧ r[j.toNat]? = some c ∧ zAt z i j = some c := by
  have h1 : i.toNat < z.length := by omega
  have h2 : z[i.toNat]? = some z[i.toNat] := List.getElem?_eq_getElem h1
  have h3 : j.toNat < (z[i.toNat]).length := by rw [hr _ (List.getElem_mem h1)]; omega
  refine ⟨_, _, h2, List.getElem?_eq_getElem h3, ?_⟩
  unfold zAt atIdx
  rw [if_pos hi.1, h2]
  simp only [Option.bind_some]
  rw [if_pos hj.1, List.getElem?_eq_getElem h3]

theorem frac_cell {v : List K} {ax : BAxis K} (hv : ax.values = v) {q a b : K} {i : Nat} (hf : ax.find q = i) (ha : v[i]? = some a) (hb : v[i + 1]? = some b) :
    ax.frac q = some ((q - a) / (b - a)) ∧ ax.dist q = some ((a - q) / (b - a)) := by
  unfold BAxis.frac BAxis.dist atIdx
  rw [hf, hv, if_pos (by omega), if_pos (by omega)]
  rw [show ((i : Int)).toNat = i by omega, show ((i : Int) + 1).toNat = i + 1 by omega, ha, hb]
  exact ⟨rfl, rfl⟩

/-- C48. No query leads out of the grid: an interpolator that was accepted returns a number for every pair of
queries. -/
theorem C48_in_range {x y : List K} {z : List (List K)} {b : Bicubic K} (h : mkBicubic x y z = .ok b) (qx qy : K) :
    ∃ r, b.at qx qy = some r := by
  obtain ⟨hx, hy, hz, hl, hr⟩ := mkBicubic_ok h
  obtain ⟨x1, x2⟩ := find_range hx qx
  obtain ⟨y1, y2⟩ := find_range hy qy
  obtain ⟨vx, lx, _, _⟩ := mkAxis_ok hx
  obtain ⟨vy, ly, _, _⟩ := mkAxis_ok hy
  have fr : ∀ (ax : BAxis K) (v : List K) (q : K), ax.values = v → 0 ≤ ax.find q → ax.find q + 1 < v.length →
      (∃ r, ax.frac q = some r) ∧ ∃ r, ax.dist q = some r := by
    intro ax v q hv h0 h1
    have := frac_cell (ax := ax) (v := v) (q := q) (i := (ax.find q).toNat) (a := v[(ax.find q).toNat]) (b := v[(ax.find q).toNat + 1]) hv
      (by omega) (List.getElem?_eq_getElem _) (List.getElem?_eq_getElem _)
    exact ⟨⟨_, this.1⟩, ⟨_, this.2⟩⟩
  obtain ⟨⟨ax, hax⟩, ⟨dx, hdx⟩⟩ := fr b.x x qx vx x1 x2
  obtain ⟨⟨ay, hay⟩, ⟨dy, hdy⟩⟩ := fr b.y y qy vy y1 y2
  unfold Bicubic.at
  rw [hax, hay, hdx, hdy, hz]
  split
  · exact ⟨0, rfl⟩
  split
  · obtain ⟨_, a, _, _, e1⟩ := zAt_some hl hr (i := b.x.find qx) (j := b.y.find qy) (by omega) (by omega)
    obtain ⟨_, c, _, _, e2⟩ := zAt_some hl hr (i := b.x.find qx) (j := b.y.find qy + 1) (by omega) (by omega)
    obtain ⟨_, d, _, _, e3⟩ := zAt_some hl hr (i := b.x.find qx + 1) (j := b.y.find qy) (by omega) (by omega)
    obtain ⟨_, e, _, _, e4⟩ := zAt_some hl hr (i := b.x.find qx + 1) (j := b.y.find qy + 1) (by omega) (by omega)
    exact ⟨(1 - ax) * ((1 - ay) * a + ay * c) + ax * ((1 - ay) * d + ay * e), by unfold linearAt; rw [e1, e2, e3, e4]⟩
  · rename_i hedge
    simp only [BAxis.onEdge, Bool.or_eq_true, decide_eq_true_eq, not_or, not_lt, gt_iff_lt] at hedge
    obtain ⟨⟨ex1, ex2⟩, ey1, ey2⟩ := hedge
    rw [vx] at ex2
    rw [vy] at ey2
    have c4 : ∀ (w : Int → K) (f : Int → Option K), (∀ k : Int, -1 ≤ k → k ≤ 2 → ∃ r, f k = some r) → ∃ r, comb4 w f = some r := by
      intro w f hf
      obtain ⟨a, ha⟩ := hf (-1) (by omega) (by omega)
      obtain ⟨b, hb⟩ := hf 0 (by omega) (by omega)
      obtain ⟨c, hc⟩ := hf 1 (by omega) (by omega)
      obtain ⟨d, hd⟩ := hf 2 (by omega) (by omega)
      exact ⟨_, by unfold comb4; rw [ha, hb, hc, hd]⟩
    exact c4 _ _ (fun k k1 k2 => c4 _ _ (fun l l1 l2 => by
      obtain ⟨_, c, _, _, e⟩ := zAt_some hl hr (i := b.x.find qx + k) (j := b.y.find qy + l) (by omega) (by omega)
      exact ⟨c, e⟩))

/-- C48. At a grid point the interpolator returns the stored value, on axes whose spacing is judged rightly. The full
property has no such condition (`C48_spacing_counterexample`). -/
theorem C48_grid_point_partial {x y : List K} {z : List (List K)} {b : Bicubic K} (h : mkBicubic x y z = .ok b) (sx : Sound x) (sy : Sound y)
    {i j : Nat} {qx qy c : K} {r : List K} (hi : x[i]? = some qx) (hj : y[j]? = some qy) (hr : z[i]? = some r) (hc : r[j]? = some c) :
    b.at qx qy = some c := by
  obtain ⟨hx, hy, hz, hl, hrow⟩ := mkBicubic_ok h
  have inb : ∀ (ax : BAxis K) (v : List K) (i : Nat) (q : K), mkAxis v = .ok ax → v[i]? = some q → ax.outside q = false := by
    intro ax v i q h hq
    obtain ⟨hv, hl, hp, _⟩ := mkAxis_ok h
    have hi := (List.getElem?_eq_some_iff.1 hq).1
    unfold BAxis.outside
    rw [hv, Bool.or_eq_false_iff, decide_eq_false_iff_not, decide_eq_false_iff_not, not_lt, not_lt]
    constructor
    · have h0 : v.headD 0 = v[0] := by cases v with
        | nil => simp at hl
        | cons x v => rfl
      rw [h0]
      exact mono_le hp (by omega) (List.getElem?_eq_getElem _) hq
    · have hn : v.getLastD 0 = v[v.length - 1] := by
        rw [List.getLastD_eq_getLast?, List.getLast?_eq_getElem?, List.getElem?_eq_getElem (by omega)]; rfl
      rw [hn]
      exact mono_le hp (by omega) hq (List.getElem?_eq_getElem _)
  have ox := inb _ _ _ _ hx hi
  have oy := inb _ _ _ _ hy hj
  -- the cell found starts at the point, unless the point is the last one
  have cell : ∀ (ax : BAxis K) (v : List K) (i : Nat) (q : K), mkAxis v = .ok ax → Sound v → v[i]? = some q →
      ∃ (k : Nat), ax.find q = k ∧ k + 1 < v.length ∧ ((k = i ∧ ax.frac q = some 0 ∧ ax.dist q = some 0) ∨
        (k + 1 = i ∧ i + 1 = v.length ∧ ax.frac q = some 1)) := by
    intro ax v i q h hs hq
    obtain ⟨hv, hl, hp, _⟩ := mkAxis_ok h
    obtain ⟨k, a, b', hf, ha, hb, hab, h1, h2, h3⟩ := find_cell h hs (inb ax v i q h hq)
    have hk := (List.getElem?_eq_some_iff.1 hb).1
    refine ⟨k, hf, hk, ?_⟩
    obtain ⟨f1, f2⟩ := frac_cell (ax := ax) (v := v) hv hf ha hb
    have hab' : b' - a ≠ 0 := sub_ne_zero.2 hab.ne'
    rcases Nat.lt_trichotomy i k with hik | hik | hik
    · have := mono hp hik hq ha; exact absurd h1 (not_le.2 this)
    · left
      subst hik
      rw [hq] at ha
      injection ha with ha
      subst ha
      refine ⟨rfl, ?_, ?_⟩
      · rw [f1, sub_self, zero_div]
      · rw [f2, sub_self, zero_div]
    · right
      have hik' : i = k + 1 := by
        by_contra hne
        have := mono hp (by omega : k + 1 < i) hb hq
        exact absurd h2 (not_le.2 this)
      subst hik'
      rw [hq] at hb
      injection hb with hb
      have := h3 hb
      refine ⟨rfl, by omega, ?_⟩
      rw [f1, hb, div_self hab']
  obtain ⟨kx, fx, lx, cx⟩ := cell b.x x i qx hx sx hi
  obtain ⟨ky, fy, ly, cy⟩ := cell b.y y j qy hy sy hj
  have hlen : ∀ (k : Nat), k < x.length → ∃ rr, z[k]? = some rr ∧ rr.length = y.length := by
    intro k hk
    have : k < z.length := by omega
    exact ⟨z[k], List.getElem?_eq_getElem this, hrow _ (List.getElem_mem this)⟩
  have zat : ∀ (k l : Nat) (rr : List K) (c : K), z[k]? = some rr → rr[l]? = some c → zAt z k l = some c := by
    intro k l rr c h1 h2
    unfold zAt atIdx
    rw [if_pos (by omega), show ((k : Int)).toNat = k by omega, h1]
    simp only [Option.bind_some]
    rw [if_pos (by omega), show ((l : Int)).toNat = l by omega, h2]
  obtain ⟨vx, _, _, _⟩ := mkAxis_ok hx
  obtain ⟨vy, _, _, _⟩ := mkAxis_ok hy
  unfold Bicubic.at
  rw [ox, oy]
  simp only [Bool.or_self, Bool.false_eq_true, if_false]
  by_cases hedge : (b.x.onEdge qx || b.y.onEdge qy) = true
  · rw [if_pos hedge, hz, fx, fy]
    obtain ⟨r0, z0, l0⟩ := hlen kx (by omega)
    obtain ⟨r1, z1, l1⟩ := hlen (kx + 1) (by omega)
    have a00 := zat kx ky r0 _ z0 (List.getElem?_eq_getElem (by omega))
    have a01 := zat kx (ky + 1) r0 _ z0 (List.getElem?_eq_getElem (by omega))
    have a10 := zat (kx + 1) ky r1 _ z1 (List.getElem?_eq_getElem (by omega))
    have a11 := zat (kx + 1) (ky + 1) r1 _ z1 (List.getElem?_eq_getElem (by omega))
    push_cast at a01 a10 a11
    have val : zAt z i j = some c := zat i j r c hr hc
    rcases cx with ⟨rfl, gx, _⟩ | ⟨rfl, _, gx⟩ <;> rcases cy with ⟨rfl, gy, _⟩ | ⟨rfl, _, gy⟩ <;>
      (rw [gx, gy]; dsimp only; unfold linearAt; rw [a00, a01, a10, a11]; dsimp only)
    · rw [a00] at val; injection val with val; rw [← val]; congr 1; ring
    · push_cast at val; rw [a01] at val; injection val with val; rw [← val]; congr 1; ring
    · push_cast at val; rw [a10] at val; injection val with val; rw [← val]; congr 1; ring
    · push_cast at val; rw [a11] at val; injection val with val; rw [← val]; congr 1; ring
  · rw [if_neg hedge]
    simp only [BAxis.onEdge, Bool.or_eq_true, decide_eq_true_eq, not_or, not_lt, gt_iff_lt] at hedge
    obtain ⟨⟨ex1, ex2⟩, ey1, ey2⟩ := hedge
    rw [vx, fx] at ex2
    rw [vy, fy] at ey2
    rw [fx] at ex1
    rw [fy] at ey1
    rcases cx with ⟨rfl, _, gx⟩ | ⟨hk, hk2, _⟩
    · rcases cy with ⟨rfl, _, gy⟩ | ⟨hk, hk2, _⟩
      · rw [gx, gy, hz, fx, fy]
        dsimp only
        obtain ⟨w1, w2, w3, w4⟩ := weights_zero (K := K)
        unfold cubicAt
        have c4 : ∀ (f : Int → Option K), (∀ k : Int, -1 ≤ k → k ≤ 2 → ∃ r, f k = some r) → comb4 (weight 0) f = f 0 := by
          intro f hf
          obtain ⟨a, ha⟩ := hf (-1) (by omega) (by omega)
          obtain ⟨b, hb⟩ := hf 0 (by omega) (by omega)
          obtain ⟨c, hc⟩ := hf 1 (by omega) (by omega)
          obtain ⟨d, hd⟩ := hf 2 (by omega) (by omega)
          unfold comb4
          rw [ha, hb, hc, hd, w1, w2, w3, w4]
          dsimp only
          congr 1; ring
        have inner : ∀ k : Int, -1 ≤ k → k ≤ 2 → ∀ l : Int, -1 ≤ l → l ≤ 2 → ∃ r, zAt z (kx + k) (ky + l) = some r := by
          intro k k1 k2 l l1 l2
          obtain ⟨_, c, _, _, e⟩ := zAt_some hl hrow (i := kx + k) (j := ky + l) (by omega) (by omega)
          exact ⟨c, e⟩
        rw [c4]
        · rw [c4 _ (inner 0 (by omega) (by omega))]
          rw [add_zero, add_zero]
          exact zat _ _ r c hr hc
        · intro k k1 k2
          rw [c4 _ (inner k k1 k2)]
          exact inner k k1 k2 0 (by omega) (by omega)
      · omega
    · omega

/-- C48. Outside of the bounds of an axis the result is zero; on a constant grid it is the constant everywhere
inside, on axes whose spacing is judged rightly. -/
theorem C48_constant_partial {x y : List K} {z : List (List K)} {b : Bicubic K} (h : mkBicubic x y z = .ok b) (qx qy : K) :
    ((∀ a ∈ x, qx < a) ∨ (∀ a ∈ x, a < qx) ∨ (∀ a ∈ y, qy < a) ∨ (∀ a ∈ y, a < qy) → b.at qx qy = some 0) ∧
    (Sound x → Sound y → ∀ c, (∀ r ∈ z, ∀ v ∈ r, v = c) → (∃ a ∈ x, a ≤ qx) → (∃ a ∈ x, qx ≤ a) → (∃ a ∈ y, a ≤ qy) → (∃ a ∈ y, qy ≤ a) →
      b.at qx qy = some c) := by
  obtain ⟨hx, hy, hz, hl, hr⟩ := mkBicubic_ok h
  have ends : ∀ (ax : BAxis K) (v : List K), mkAxis v = .ok ax → ax.values.headD 0 ∈ v ∧ ax.values.getLastD 0 ∈ v ∧
      (∀ a ∈ v, ax.values.headD 0 ≤ a) ∧ ∀ a ∈ v, a ≤ ax.values.getLastD 0 := by
    intro ax v h
    obtain ⟨hv, hl, hp, _⟩ := mkAxis_ok h
    rw [hv]
    have h0 : v.headD 0 = v[0] := by cases v with
      | nil => simp at hl
      | cons x v => rfl
    have hn : v.getLastD 0 = v[v.length - 1] := by
      rw [List.getLastD_eq_getLast?, List.getLast?_eq_getElem?, List.getElem?_eq_getElem (by omega)]; rfl
    rw [h0, hn]
    refine ⟨List.getElem_mem _, List.getElem_mem _, ?_, ?_⟩
    · intro a ha
      obtain ⟨i, hi⟩ := List.getElem?_of_mem ha
      exact mono_le hp (by omega) (List.getElem?_eq_getElem _) hi
    · intro a ha
      obtain ⟨i, hi⟩ := List.getElem?_of_mem ha
      have := (List.getElem?_eq_some_iff.1 hi).1
      exact mono_le hp (by omega) hi (List.getElem?_eq_getElem _)
  obtain ⟨x1, x2, x3, x4⟩ := ends _ _ hx
  obtain ⟨y1, y2, y3, y4⟩ := ends _ _ hy
  constructor
  · intro ho
    unfold Bicubic.at
    rw [if_pos]
    unfold BAxis.outside
    simp only [Bool.or_eq_true, decide_eq_true_eq, gt_iff_lt]
    rcases ho with ho | ho | ho | ho
    · exact Or.inl (Or.inl (ho _ x1))
    · exact Or.inl (Or.inr (ho _ x2))
    · exact Or.inr (Or.inl (ho _ y1))
    · exact Or.inr (Or.inr (ho _ y2))
  · rintro sx sy c hc ⟨a1, m1, l1⟩ ⟨a2, m2, l2⟩ ⟨a3, m3, l3⟩ ⟨a4, m4, l4⟩
    have ox : b.x.outside qx = false := by
      unfold BAxis.outside
      rw [Bool.or_eq_false_iff, decide_eq_false_iff_not, decide_eq_false_iff_not, not_lt, not_lt]
      exact ⟨le_trans (x3 _ m1) l1, le_trans l2 (x4 _ m2)⟩
    have oy : b.y.outside qy = false := by
      unfold BAxis.outside
      rw [Bool.or_eq_false_iff, decide_eq_false_iff_not, decide_eq_false_iff_not, not_lt, not_lt]
      exact ⟨le_trans (y3 _ m3) l3, le_trans l4 (y4 _ m4)⟩
    obtain ⟨i, u, v, fx, hu, hv, huv, q1, q2, _⟩ := find_cell hx sx ox
    obtain ⟨j, s, t, fy, hs, ht, hst, p1, p2, _⟩ := find_cell hy sy oy
    obtain ⟨vx, _, _, _⟩ := mkAxis_ok hx
    obtain ⟨vy, _, _, _⟩ := mkAxis_ok hy
    obtain ⟨gx, dx⟩ := frac_cell (ax := b.x) vx fx hu hv
    obtain ⟨gy, dy⟩ := frac_cell (ax := b.y) vy fy hs ht
    have hi := (List.getElem?_eq_some_iff.1 hv).1
    have hj := (List.getElem?_eq_some_iff.1 ht).1
    have zc : ∀ k l : Int, 0 ≤ k ∧ k < x.length → 0 ≤ l ∧ l < y.length → zAt z k l = some c := by
      intro k l hk hl'
      obtain ⟨r, e, e1, e2, e3⟩ := zAt_some hl hr hk hl'
      rw [e3, hc r (List.mem_of_getElem? e1) e (List.mem_of_getElem? e2)]
    unfold Bicubic.at
    rw [ox, oy]
    simp only [Bool.or_self, Bool.false_eq_true, if_false]
    by_cases hedge : (b.x.onEdge qx || b.y.onEdge qy) = true
    · rw [if_pos hedge, hz, fx, fy, gx, gy]
      dsimp only
      unfold linearAt
      rw [zc _ _ (by omega) (by omega), zc _ _ (by omega) (by omega), zc _ _ (by omega) (by omega), zc _ _ (by omega) (by omega)]
      dsimp only
      congr 1; ring
    · rw [if_neg hedge, hz, fx, fy, dx, dy]
      simp only [BAxis.onEdge, Bool.or_eq_true, decide_eq_true_eq, not_or, not_lt, gt_iff_lt] at hedge
      obtain ⟨⟨ex1, ex2⟩, ey1, ey2⟩ := hedge
      rw [vx, fx] at ex2
      rw [vy, fy] at ey2
      rw [fx] at ex1
      rw [fy] at ey1
      dsimp only
      have unit : ∀ (a q b : K), a < b → a ≤ q → q ≤ b → -1 ≤ (a - q) / (b - a) ∧ (a - q) / (b - a) ≤ 0 := by
        intro a q b h1 h2 h3
        have hp : 0 < b - a := by linarith
        rw [le_div_iff₀ hp, div_le_iff₀ hp]
        constructor <;> linarith
      obtain ⟨ux1, ux2⟩ := unit u qx v huv q1 q2
      obtain ⟨uy1, uy2⟩ := unit s qy t hst p1 p2
      have c4 : ∀ (d : K), -1 ≤ d → d ≤ 0 → ∀ (f : Int → Option K), (∀ k : Int, -1 ≤ k → k ≤ 2 → f k = some c) → comb4 (weight d) f = some c := by
        intro d d1 d2 f hf
        unfold comb4
        rw [hf (-1) (by omega) (by omega), hf 0 (by omega) (by omega), hf 1 (by omega) (by omega), hf 2 (by omega) (by omega)]
        dsimp only
        congr 1
        have := C48_weights_sum d d1 d2
        calc _ = (weight d (-1) + weight d 0 + weight d 1 + weight d 2) * c := by ring
          _ = c := by rw [this, one_mul]
      unfold cubicAt
      exact c4 _ ux1 ux2 _ (fun k k1 k2 => c4 _ uy1 uy2 _ (fun l l1 l2 => zc _ _ (by omega) (by omega)))

/-- C48: the results are arranged as one row for each query `x` and one column for each query `y`. -/
theorem C48_call_shape (b : Bicubic K) (xs ys : List K) :
    (b.call xs ys).length = xs.length ∧ ∀ (i j : Nat) qx qy, xs[i]? = some qx → ys[j]? = some qy →
      ∃ row, (b.call xs ys)[i]? = some row ∧ row.length = ys.length ∧ row[j]? = some (b.at qx qy) := by
  refine ⟨by simp [Bicubic.call], ?_⟩
  intro i j qx qy hi hj
  refine ⟨ys.map fun qy => b.at qx qy, ?_, by simp, ?_⟩
  · simp [Bicubic.call, hi]
  · simp [hj]

/-- An axis with steps below `1e-6` that are far from regular. -/
def tiny : List ℚ := [0, 1 / 100000000, 2 / 100000000, 3 / 100000000, 20 / 100000000, 21 / 100000000]

/-- The test of whether the interpolator is accepted, as a decidable statement. -/
def accepted (x y : List ℚ) (z : List (List ℚ)) (p : Bicubic ℚ → Bool) : Bool :=
  match mkBicubic x y z with
  | .ok b => p b
  | .error _ => false

theorem accepted_spec {x y : List ℚ} {z : List (List ℚ)} {p : Bicubic ℚ → Bool} (h : accepted x y z p = true) :
    ∃ b, mkBicubic x y z = .ok b ∧ p b = true := by
  unfold accepted at h
  cases hb : mkBicubic x y z with
  | error e => rw [hb] at h; cases h
  | ok b => rw [hb] at h; exact ⟨b, rfl, h⟩

/-- C48 fails on axes with small irregular steps, which are taken for regular: the value returned at a grid point is not
the stored one, and a constant grid gives another value. -/
theorem C48_spacing_counterexample :
    (∃ b : Bicubic ℚ, mkBicubic tiny [0, 1, 2, 3, 4, 5] [[0, 0, 0, 0, 0, 0], [0, 0, 0, 0, 0, 0], [7, 7, 7, 7, 7, 7], [0, 0, 0, 0, 0, 0],
        [0, 0, 0, 0, 0, 0], [0, 0, 0, 0, 0, 0]] = .ok b ∧ tiny[2]? = some (2 / 100000000) ∧ b.at (2 / 100000000) 2 = some 0) ∧
    (∃ b : Bicubic ℚ, mkBicubic tiny [0, 1, 2, 3, 4, 5] (List.replicate 6 (List.replicate 6 1)) = .ok b ∧
      b.at (17 / 100000000) (5 / 2) ≠ some 1) := by
  constructor
  · obtain ⟨b, h1, h2⟩ := accepted_spec (x := tiny) (y := [0, 1, 2, 3, 4, 5]) (z := [[0, 0, 0, 0, 0, 0], [0, 0, 0, 0, 0, 0], [7, 7, 7, 7, 7, 7],
      [0, 0, 0, 0, 0, 0], [0, 0, 0, 0, 0, 0], [0, 0, 0, 0, 0, 0]]) (p := fun b => decide (b.at (2 / 100000000) 2 = some 0)) (by decide +kernel)
    exact ⟨b, h1, rfl, of_decide_eq_true h2⟩
  · obtain ⟨b, h1, h2⟩ := accepted_spec (x := tiny) (y := [0, 1, 2, 3, 4, 5]) (z := List.replicate 6 (List.replicate 6 1))
      (p := fun b => decide (b.at (17 / 100000000) (5 / 2) ≠ some 1)) (by decide +kernel)
    exact ⟨b, h1, of_decide_eq_true h2⟩

/-- A case that meets the hypotheses of the theorems: regular and irregular axes. -/
example : ∃ b : Bicubic ℚ, mkBicubic [0, 1, 2, 3, 4, 5] [0, 1, 3, 6, 7, 9] [[0, 0, 0, 0, 0, 0], [0, 0, 0, 0, 0, 0], [7, 7, 7, 7, 7, 7], [0, 0, 0, 0, 0, 0],
    [0, 0, 0, 0, 0, 0], [0, 0, 0, 0, 0, 0]] = .ok b ∧ b.at 2 3 = some 7 ∧ b.at (5 / 2) 3 ≠ some 7 ∧ b.at 6 3 = some 0 := by
  obtain ⟨b, h1, h2⟩ := accepted_spec (x := [0, 1, 2, 3, 4, 5]) (y := [0, 1, 3, 6, 7, 9]) (z := [[0, 0, 0, 0, 0, 0], [0, 0, 0, 0, 0, 0], [7, 7, 7, 7, 7, 7],
    [0, 0, 0, 0, 0, 0], [0, 0, 0, 0, 0, 0], [0, 0, 0, 0, 0, 0]]) (p := fun b => decide (b.at 2 3 = some 7 ∧ b.at (5 / 2) 3 ≠ some 7 ∧ b.at 6 3 = some 0))
    (by decide +kernel)
  exact ⟨b, h1, of_decide_eq_true h2⟩

example : Sound [(0 : ℚ), 1, 3, 6, 7, 9] := Or.inr ⟨1, 2, ⟨0, 0, 1, rfl, rfl, by norm_num⟩, ⟨1, 1, 3, rfl, rfl, by norm_num⟩, by norm_num⟩

end LCL.BicubicProps
