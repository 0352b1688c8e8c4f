import Verif.Model.GridIO
import Mathlib.Data.List.Pairwise
import Mathlib.Order.Basic

/-!
# Properties C46 (the grid reader) and C47 (numpy files)
-/

namespace LCL.GridIOProps
open LCL

section Grid
variable {K : Type} [LinearOrder K]

/-- The table of a full grid: one row `(x0, x1, value)` for each grid point, `x0` varying slowest. -/
def dump (x0 x1 : List K) (v : List (List K)) : List (K × K × K) :=
  (x0.zip v).flatMap fun q => (x1.zip q.2).map fun s => (q.1, s.1, s.2)

/-- The columns of a table given by its rows. -/
def columns (rows : List (K × K × K)) : List (List K) := [rows.map (·.1), rows.map (·.2.1), rows.map (·.2.2)]

/-- A grid: strictly increasing axes, not empty, and one value for each point. -/
structure Grid (x0 x1 : List K) (v : List (List K)) : Prop where
  axis0 : x0.Pairwise (· < ·) ∧ x0 ≠ []
  axis1 : x1.Pairwise (· < ·) ∧ x1 ≠ []
  rows : v.length = x0.length
  cols : ∀ r ∈ v, r.length = x1.length

theorem uniqueSorted_mem (l : List K) (a : K) : a ∈ uniqueSorted l ↔ a ∈ l := by
  unfold uniqueSorted; rw [List.mem_dedup, List.mem_mergeSort]

theorem uniqueSorted_lt (l : List K) : (uniqueSorted l).Pairwise (· < ·) := by
  have h1 : (l.mergeSort (fun a b => decide (a ≤ b))).Pairwise (fun a b => (decide (a ≤ b)) = true) :=
    List.pairwise_mergeSort (fun a b c h1 h2 => by
      simp only [decide_eq_true_eq] at h1 h2 ⊢; exact le_trans h1 h2) (fun a b => by
      simp only [Bool.or_eq_true, decide_eq_true_eq]; exact le_total a b) l
  have h2 : (uniqueSorted l).Pairwise (fun a b => (decide (a ≤ b)) = true) :=
    h1.sublist (List.dedup_sublist _)
  have h3 : (uniqueSorted l).Nodup := List.nodup_dedup _
  have h4 := h2.and h3
  exact h4.imp (fun h => lt_of_le_of_ne (of_decide_eq_true h.1) h.2)

theorem uniqueSorted_eq {l x : List K} (hx : x.Pairwise (· < ·)) (h : ∀ a, a ∈ l ↔ a ∈ x) : uniqueSorted l = x := by
  have h1 := uniqueSorted_lt l
  have hp : (uniqueSorted l).Perm x := by
    rw [List.perm_ext_iff_of_nodup (h1.imp ne_of_lt) (hx.imp ne_of_lt)]
    intro a
    rw [uniqueSorted_mem, h a]
  exact hp.eq_of_pairwise (fun a b _ _ h1 h2 => absurd h1 (not_lt.2 h2.le)) h1 hx

theorem dump_keys {x0 x1 : List K} {v : List (List K)} (h2 : v.length = x0.length) (h3 : ∀ r ∈ v, r.length = x1.length) :
    (dump x0 x1 v).map (fun q => (q.1, q.2.1)) = gridOrder x0 x1 ∧ (dump x0 x1 v).map (·.2.2) = v.flatten := by
  unfold dump gridOrder
  induction x0 generalizing v with
  | nil => cases v with
    | nil => simp
    | cons _ _ => simp at h2
  | cons a x0 ih =>
    cases v with
    | nil => simp at h2
    | cons r v =>
      obtain ⟨i1, i2⟩ := ih (by simpa using h2) (fun q hq => h3 q (List.mem_cons_of_mem _ hq))
      have hr := h3 r (by simp)
      simp only [List.zip_cons_cons, List.flatMap_cons, List.map_append, i1, i2, List.flatten_cons, List.map_map]
      constructor
      · congr 1
        clear ih i1 i2 h2 h3
        induction x1 generalizing r with
        | nil => simp
        | cons b x1 ih =>
          cases r with
          | nil => simp at hr
          | cons c r => simp only [List.zip_cons_cons, List.map_cons, Function.comp]; rw [← ih r (by simpa using hr)]
      · congr 1
        clear ih i1 i2 h2 h3
        induction x1 generalizing r with
        | nil => cases r with
          | nil => rfl
          | cons _ _ => simp at hr
        | cons b x1 ih =>
          cases r with
          | nil => simp at hr
          | cons c r => simp only [List.zip_cons_cons, List.map_cons, Function.comp]; exact congrArg _ (ih r (by simpa using hr))

theorem checkOrder_iff (es ds : List (K × K)) (hl : es.length = ds.length) : checkOrder es ds = .ok () ↔ ds = es := by
  induction es generalizing ds with
  | nil => cases ds with
    | nil => simp [checkOrder]
    | cons _ _ => simp at hl
  | cons e es ih =>
    cases ds with
    | nil => simp at hl
    | cons d ds =>
      have := ih ds (by simpa using hl)
      simp only [checkOrder]
      by_cases h1 : d.1 = e.1
      · by_cases h2 : d.2 = e.2
        · rw [if_neg (by simpa using h1), if_neg (by simpa using h2), this]
          have : d = e := Prod.ext h1 h2
          simp [this]
        · rw [if_neg (by simpa using h1), if_pos h2]
          simp only [reduceCtorEq, List.cons.injEq, false_iff, not_and]
          intro h; exact absurd (by rw [h]) h2
      · rw [if_pos h1]
        simp only [reduceCtorEq, List.cons.injEq, false_iff, not_and]
        intro h; exact absurd (by rw [h]) h1

theorem checkOrder_err {es ds : List (K × K)} (hl : es.length = ds.length) : ∀ e, checkOrder es ds = .error e → e = .valueError := by
  induction es generalizing ds with
  | nil => intro e h; simp [checkOrder] at h
  | cons e0 es ih =>
    cases ds with
    | nil => simp at hl
    | cons d ds =>
      intro e h
      simp only [checkOrder] at h
      split at h
      · cases h; rfl
      · split at h
        · cases h; rfl
        · exact ih (by simpa using hl) e h

theorem reshape_flatten {β : Type} {v : List (List β)} {m : Nat} (h : ∀ r ∈ v, r.length = m) : reshape v.length m v.flatten = v := by
  induction v with
  | nil => rfl
  | cons r v ih =>
    have hr := h r (by simp)
    simp only [List.length_cons, reshape, List.flatten_cons]
    rw [List.take_left' hr, List.drop_left' hr, ih (fun q hq => h q (List.mem_cons_of_mem _ hq))]

theorem flatten_reshape {β : Type} (n m : Nat) (l : List β) (h : l.length = n * m) : (reshape n m l).flatten = l ∧
    (reshape n m l).length = n ∧ ∀ r ∈ reshape n m l, r.length = m := by
  induction n generalizing l with
  | zero => simp at h; subst h; simp [reshape]
  | succ n ih =>
    have h' : l.length = n * m + m := by rw [h, Nat.succ_mul]
    obtain ⟨a, b, c⟩ := ih (l.drop m) (by simp [h'])
    simp only [reshape, List.flatten_cons, a, List.take_append_drop, List.length_cons, b, List.mem_cons, forall_eq_or_imp, true_and]
    exact ⟨by simp [h'], c⟩

theorem gridOrder_length (x0 x1 : List K) : (gridOrder x0 x1).length = x0.length * x1.length := by
  unfold gridOrder
  induction x0 with
  | nil => simp
  | cons a x0 ih => simp only [List.flatMap_cons, List.length_append, List.length_map, ih, List.length_cons]; ring

theorem gridOrder_unique {x0 x1 : List K} (h0 : x0 ≠ []) (h1 : x1 ≠ []) (s0 : x0.Pairwise (· < ·)) (s1 : x1.Pairwise (· < ·)) :
    uniqueSorted ((gridOrder x0 x1).map (·.1)) = x0 ∧ uniqueSorted ((gridOrder x0 x1).map (·.2)) = x1 := by
  obtain ⟨b, hb⟩ := List.exists_mem_of_ne_nil x1 h1
  obtain ⟨a, ha⟩ := List.exists_mem_of_ne_nil x0 h0
  constructor
  · apply uniqueSorted_eq s0
    intro c
    simp only [gridOrder, List.mem_map, List.mem_flatMap, Prod.exists, exists_and_right, exists_eq_right, Prod.mk.injEq]
    constructor
    · rintro ⟨_, a', ha', _, _, rfl, _⟩; exact ha'
    · intro hc; exact ⟨b, c, hc, b, hb, rfl, rfl⟩
  · apply uniqueSorted_eq s1
    intro c
    simp only [gridOrder, List.mem_map, List.mem_flatMap, Prod.exists, exists_eq_right, Prod.mk.injEq]
    constructor
    · rintro ⟨_, _, _, b', hb', _, rfl⟩; exact hb'
    · intro hc; exact ⟨a, a, ha, c, hc, rfl, rfl⟩

/-- C46. Reading the table of a full grid gives back its axes and its values, with and without validation. -/
theorem C46_inverts {x0 x1 : List K} {v : List (List K)} (h : Grid x0 x1 v) (validate : Bool) :
    readGrid (some (columns (dump x0 x1 v))) validate = .ok (x0, x1, v) := by
  obtain ⟨k1, k2⟩ := dump_keys h.rows h.cols
  have e0 : (dump x0 x1 v).map (·.1) = (gridOrder x0 x1).map (·.1) := by rw [← k1]; simp
  have e1 : (dump x0 x1 v).map (·.2.1) = (gridOrder x0 x1).map (·.2) := by rw [← k1]; simp
  obtain ⟨u0, u1⟩ := gridOrder_unique h.axis0.2 h.axis1.2 h.axis0.1 h.axis1.1
  unfold readGrid columns gridFrom
  dsimp only
  rw [e0, e1, k2, u0, u1, if_neg (by simp [gridOrder_length])]
  have hz : ((gridOrder x0 x1).map (·.1)).zip ((gridOrder x0 x1).map (·.2)) = gridOrder x0 x1 := by
    rw [List.zip_map', List.map_id'' (fun q => rfl)]
  have hc : (if validate then checkOrder (gridOrder x0 x1) (gridOrder x0 x1) else .ok ()) = .ok () := by
    cases validate with
    | true => exact (checkOrder_iff _ _ rfl).2 rfl
    | false => rfl
  rw [hz, hc]
  dsimp only
  rw [← h.rows, reshape_flatten h.cols]

/-- C46. With validation, whatever is returned is the grid that was in the file: the axes increase, and the rows of
the table are exactly the grid points in order with their values. Every other table of three columns raises
ValueError. -/
theorem C46_validated (rows : List (K × K × K)) :
    (∀ x0 x1 v, readGrid (some (columns rows)) true = .ok (x0, x1, v) →
      x0.Pairwise (· < ·) ∧ x1.Pairwise (· < ·) ∧ v.length = x0.length ∧ (∀ r ∈ v, r.length = x1.length) ∧ rows = dump x0 x1 v) ∧
    ((¬ ∃ x0 x1 v, Grid x0 x1 v ∧ rows = dump x0 x1 v) → rows ≠ [] → readGrid (some (columns rows)) true = .error .valueError) := by
  have zip_keys : (rows.map (·.1)).zip (rows.map (·.2.1)) = rows.map (fun q => (q.1, q.2.1)) := by rw [List.zip_map']
  have key : ∀ x0 x1 v, readGrid (some (columns rows)) true = .ok (x0, x1, v) →
      x0.Pairwise (· < ·) ∧ x1.Pairwise (· < ·) ∧ v.length = x0.length ∧ (∀ r ∈ v, r.length = x1.length) ∧ rows = dump x0 x1 v := by
    intro x0 x1 v h
    unfold readGrid columns gridFrom at h
    dsimp only at h
    split at h
    · cases h
    · rename_i hl
      rw [not_not] at hl
      simp only [if_true] at h
      cases hc : checkOrder (gridOrder (uniqueSorted (rows.map (·.1))) (uniqueSorted (rows.map (·.2.1))))
          ((rows.map (·.1)).zip (rows.map (·.2.1))) with
      | error e => rw [hc] at h; cases h
      | ok _ =>
        rw [hc] at h
        dsimp only at h
        injection h with h
        injection h with h0 h
        injection h with h1 h2
        rw [h0, h1] at hl hc h2
        rw [zip_keys] at hc
        have hl' : rows.length = x0.length * x1.length := by simpa using hl
        have hk := (checkOrder_iff _ _ (by rw [gridOrder_length, List.length_map, hl'])).1 hc
        obtain ⟨f1, f2, f3⟩ := flatten_reshape x0.length x1.length (rows.map (·.2.2)) (by simpa using hl')
        rw [h2] at f1 f2 f3
        refine ⟨h0 ▸ uniqueSorted_lt _, h1 ▸ uniqueSorted_lt _, f2, f3, ?_⟩
        obtain ⟨k1, k2⟩ := dump_keys (x0 := x0) (x1 := x1) f2 f3
        have e1 : rows.map (fun q => ((q.1, q.2.1), q.2.2)) = (dump x0 x1 v).map (fun q => ((q.1, q.2.1), q.2.2)) := by
          have a := hk.trans k1.symm
          have b := f1.symm.trans k2.symm
          have : ∀ l : List (K × K × K), l.map (fun q => ((q.1, q.2.1), q.2.2)) = (l.map (fun q => (q.1, q.2.1))).zip (l.map (·.2.2)) := by
            intro l; rw [List.zip_map']
          rw [this, this, a, b]
        have hinj : Function.Injective (fun q : K × K × K => ((q.1, q.2.1), q.2.2)) := by
          rintro ⟨a, b, c⟩ ⟨a', b', c'⟩ h
          simp only [Prod.mk.injEq] at h
          obtain ⟨⟨rfl, rfl⟩, rfl⟩ := h
          rfl
        exact List.map_injective_iff.2 hinj e1
  refine ⟨key, ?_⟩
  intro hno hne
  cases hr : readGrid (some (columns rows)) true with
  | ok p =>
    obtain ⟨x0, x1, v⟩ := p
    obtain ⟨a, b, c, d, e⟩ := key x0 x1 v hr
    exfalso
    apply hno
    refine ⟨x0, x1, v, ⟨⟨a, ?_⟩, ⟨b, ?_⟩, c, d⟩, e⟩
    · rintro rfl; exact hne (by rw [e]; rfl)
    · rintro rfl
      apply hne
      rw [e]
      unfold dump
      simp
  | error e =>
    unfold readGrid columns gridFrom at hr
    dsimp only at hr
    split at hr
    · cases hr; rfl
    · rename_i hl
      rw [not_not] at hl
      simp only [if_true] at hr
      cases hc : checkOrder (gridOrder (uniqueSorted (rows.map (·.1))) (uniqueSorted (rows.map (·.2.1))))
          ((rows.map (·.1)).zip (rows.map (·.2.1))) with
      | error e' =>
        rw [hc] at hr
        have he : e' = e := by injection hr
        rw [← he]
        exact congrArg _ (checkOrder_err (by rw [gridOrder_length, zip_keys, List.length_map]; simpa using hl.symm) e' hc)
      | ok _ => rw [hc] at hr; cases hr

/-- C46: a table with any other number of columns raises ValueError; a missing file FileNotFoundError; a table whose
number of rows is not that of a full grid raises ValueError also without validation. -/
theorem C46_rejects (validate : Bool) :
    readGrid (none : Option (List (List K))) validate = .error .fileNotFound ∧
    (∀ cols : List (List K), cols.length ≠ 3 → readGrid (some cols) validate = .error .valueError) ∧
    (∀ rows : List (K × K × K), (∀ x0 x1 : List K, x0.Nodup → x1.Nodup → (∀ a, a ∈ x0 ↔ a ∈ rows.map (·.1)) → (∀ a, a ∈ x1 ↔ a ∈ rows.map (·.2.1)) →
      rows.length ≠ x0.length * x1.length) → readGrid (some (columns rows)) validate = .error .valueError) := by
  refine ⟨rfl, ?_, ?_⟩
  · intro cols h
    match cols with
    | [] => rfl
    | [_] => rfl
    | [_, _] => rfl
    | [_, _, _] => exact absurd rfl h
    | _ :: _ :: _ :: _ :: _ => rfl
  · intro rows h
    unfold readGrid columns gridFrom
    dsimp only
    rw [if_pos]
    rw [List.length_map]
    exact h _ _ ((uniqueSorted_lt _).imp ne_of_lt) ((uniqueSorted_lt _).imp ne_of_lt) (uniqueSorted_mem _) (uniqueSorted_mem _)

end Grid

/-- C46 fails without validation (the default): the rows of a full grid in another order are accepted, and the values
end up at the wrong grid points. -/
theorem C46_unvalidated_counterexample :
    readGrid (some (columns [((0 : Int), (0 : Int), (10 : Int)), (1, 0, 20), (0, 1, 30), (1, 1, 40)])) false =
      .ok ([0, 1], [0, 1], [[10, 20], [30, 40]]) ∧
    dump [(0 : Int), 1] [0, 1] [[10, 20], [30, 40]] = [(0, 0, 10), (0, 1, 20), (1, 0, 30), (1, 1, 40)] := by
  have u0 : uniqueSorted [(0 : Int), 1, 0, 1] = [0, 1] := uniqueSorted_eq (by decide) (by simp; intro a; omega)
  have u1 : uniqueSorted [(0 : Int), 0, 1, 1] = [0, 1] := uniqueSorted_eq (by decide) (by simp)
  refine ⟨?_, rfl⟩
  unfold readGrid columns gridFrom
  simp only [List.map_cons, List.map_nil, u0, u1]
  rfl

example : Grid [(0 : Int), 2] [1, 5, 7] [[10, 20, 30], [40, 50, 60]] := ⟨by decide, by decide, rfl, by decide⟩

/-! ### C47 -/

variable {V : Type}

/-- Arrays that text files can hold without losing their shape: one-dimensional ones with at least two entries (or
none), and tables with at least two rows and two columns. -/
inductive TextSafe : NpArr V → Prop
  | vec {l : List V} : l.length ≠ 1 → TextSafe (.one l)
  | mat {n : Nat} {rows : List (List V)} : 2 ≤ n → 2 ≤ rows.length → (∀ r ∈ rows, r.length = n) → TextSafe (.two n rows)

theorem squeeze_vec {l : List V} (h : l.length ≠ 1) : squeezeRows (l.map fun x => [x]) = .one l := by
  match l with
  | [] => rfl
  | [x] => exact absurd rfl h
  | x :: y :: l =>
    have : ∀ l : List V, (l.map fun x => [x]).flatten = l := by
      intro l; induction l with
      | nil => rfl
      | cons a l ih => simp only [List.map_cons, List.flatten_cons, ih]; rfl
    simp only [List.map_cons, squeezeRows]
    rw [if_pos (show [x].length = 1 from rfl)]
    have := this (x :: y :: l)
    simp only [List.map_cons] at this
    rw [this]

theorem squeeze_mat {n : Nat} {rows : List (List V)} (h1 : 2 ≤ n) (h2 : 2 ≤ rows.length) (h3 : ∀ r ∈ rows, r.length = n) :
    squeezeRows rows = .two n rows := by
  match rows with
  | [] => simp at h2
  | [_] => simp at h2
  | r :: s :: rows =>
    have hr := h3 r (by simp)
    match r with
    | [] => simp at hr; omega
    | [_] => simp at hr; omega
    | a :: b :: r => simp only [squeezeRows]; rw [if_neg (by rw [hr]; omega), hr]

theorem text_round {delim : Char} {a : NpArr V} (h : TextSafe a) : ∃ c, saveText delim a = .ok c ∧ loadText delim c = .ok a := by
  cases h with
  | @vec l hl =>
    refine ⟨_, rfl, ?_⟩
    simp only [loadText, true_or, if_true]
    rw [List.filter_eq_self.2 (by simp), squeeze_vec hl]
  | mat h1 h2 h3 =>
    refine ⟨_, rfl, ?_⟩
    simp only [loadText, true_or, if_true]
    rw [List.filter_eq_self.2 (by intro r hr; have := h3 r hr; simp; omega), squeeze_mat h1 h2 h3]

/-- C47. Reading back a file just written gives the same array: for `.npy` and `.npz` files for every array, for
`.csv`, `.ecsv` and `.txt` files for the arrays text can represent. The full property also has `.dat` files, which
cannot be read (`C47_dat_counterexample`), and all arrays (`C47_shape_counterexample`). -/
theorem C47_round_trip_partial (fs : Dict Name (FileContent V)) (path : Name) (a : NpArr V)
    (h : pathSuffix path ∈ [".npy".toList, ".npz".toList] ∨ (pathSuffix path ∈ [".csv".toList, ".ecsv".toList, ".txt".toList] ∧ TextSafe a)) :
    ∃ fs', writeNumpy fs path a = .ok fs' ∧ readNumpy fs' path = .ok a ∧ ∀ other, other ≠ path → fs'.get? other = fs.get? other := by
  have fin : ∀ c, numpyContent (pathSuffix path) a = .ok c → readNumpy (fs.set path c) path = .ok a →
      ∃ fs', writeNumpy fs path a = .ok fs' ∧ readNumpy fs' path = .ok a ∧ ∀ other, other ≠ path → fs'.get? other = fs.get? other := by
    intro c h1 h2
    refine ⟨fs.set path c, ?_, h2, fun other ho => Dict.get?_set_ne _ _ (Ne.symm ho)⟩
    unfold writeNumpy; rw [h1]
  have rd : ∀ c, readNumpy (fs.set path c) path = (if pathSuffix path = ".npy".toList then loadNpy c
    else if pathSuffix path = ".npz".toList then loadNpz "arr_0".toList c
    else if pathSuffix path ∈ [".csv".toList, ".ecsv".toList] then loadText ',' c
    else if pathSuffix path ∈ [".txt".toList] then loadText ' ' c
    else .error .valueError) := by
    intro c; unfold readNumpy; rw [Dict.get?_set_self]
  rcases h with h | ⟨h, hs⟩
  · simp only [List.mem_cons, List.not_mem_nil, or_false] at h
    rcases h with h | h
    · exact fin (.npy a) (by rw [h]; rfl) (by rw [rd, h]; rfl)
    · exact fin (.npz [("arr_0".toList, a)]) (by rw [h]; rfl) (by rw [rd, h]; rfl)
  · simp only [List.mem_cons, List.not_mem_nil, or_false] at h
    rcases h with h | h | h
    · obtain ⟨c, h1, h2⟩ := text_round (delim := ',') hs
      exact fin c (by rw [h]; exact h1) (by rw [rd, h]; exact h2)
    · obtain ⟨c, h1, h2⟩ := text_round (delim := ',') hs
      exact fin c (by rw [h]; exact h1) (by rw [rd, h]; exact h2)
    · obtain ⟨c, h1, h2⟩ := text_round (delim := ' ') hs
      exact fin c (by rw [h]; exact h1) (by rw [rd, h]; exact h2)

/-- C47: names with another extension are rejected by both functions, and a failing write changes nothing. -/
theorem C47_unsupported (fs : Dict Name (FileContent V)) (path : Name) (a : NpArr V)
    (h : pathSuffix path ∉ [".npy".toList, ".npz".toList, ".csv".toList, ".ecsv".toList, ".txt".toList, ".dat".toList]) :
    writeNumpy fs path a = .error .valueError ∧ (∀ c, fs.get? path = some c → readNumpy fs path = .error .valueError) ∧
    (fs.get? path = none → readNumpy fs path = .error .fileNotFound) := by
  simp only [List.mem_cons, List.not_mem_nil, or_false, not_or] at h
  obtain ⟨h1, h2, h3, h4, h5, h6⟩ := h
  refine ⟨?_, ?_, ?_⟩
  · unfold writeNumpy numpyContent
    rw [if_neg h1, if_neg h2, if_neg (by simp only [List.mem_cons, List.not_mem_nil, or_false, not_or]; exact ⟨h3, h4⟩),
      if_neg (by simp only [List.mem_cons, List.not_mem_nil, or_false, not_or]; exact ⟨h5, h6⟩)]
  · intro c hc
    unfold readNumpy
    rw [hc]
    dsimp only
    rw [if_neg h1, if_neg h2, if_neg (by simp only [List.mem_cons, List.not_mem_nil, or_false, not_or]; exact ⟨h3, h4⟩),
      if_neg (by simp only [List.mem_cons, List.not_mem_nil, or_false]; exact h5)]
  · intro hc; unfold readNumpy; rw [hc]

/-- C47 fails for `.dat` files: they are written but cannot be read. -/
theorem C47_dat_counterexample : ∃ fs', writeNumpy [] "table.dat".toList (.one [1, 2, (3 : Nat)]) = .ok fs' ∧
    readNumpy fs' "table.dat".toList = .error .valueError := ⟨_, rfl, rfl⟩

/-- C47 fails for text files with a single row, column or entry: the array read has another shape. -/
theorem C47_shape_counterexample :
    (∃ fs', writeNumpy [] "t.csv".toList (.two 1 [[1], [(2 : Nat)]]) = .ok fs' ∧ readNumpy fs' "t.csv".toList = .ok (.one [1, 2])) ∧
    (∃ fs', writeNumpy [] "t.csv".toList (.two 2 [[1, (2 : Nat)]]) = .ok fs' ∧ readNumpy fs' "t.csv".toList = .ok (.one [1, 2])) ∧
    (∃ fs', writeNumpy [] "t.txt".toList (.one [(5 : Nat)]) = .ok fs' ∧ readNumpy fs' "t.txt".toList = .ok (.zero 5)) :=
  ⟨⟨_, rfl, rfl⟩, ⟨_, rfl, rfl⟩, ⟨_, rfl, rfl⟩⟩

example : pathSuffix "/data/run.1/sed.csv".toList = ".csv".toList ∧ pathSuffix "/data.csv/README".toList = [] ∧
    pathSuffix ".csv".toList = [] ∧ TextSafe (.two 2 [[1, 2], [3, (4 : Nat)]]) :=
  ⟨rfl, rfl, rfl, .mat (by decide) (by decide) (by simp)⟩

theorem lastDot_ext : ∀ (pre : List Char) (ext : List Char), '.' ∉ ext → lastDot (pre ++ '.' :: ext) = some (pre.length, '.' :: ext)
  | [], ext, h => by
    have hn : ∀ l : List Char, '.' ∉ l → lastDot l = none := by
      intro l
      induction l with
      | nil => intro _; rfl
      | cons c l ih =>
        intro h
        rw [List.mem_cons, not_or] at h
        simp only [lastDot, ih h.2]
        rw [if_neg (fun e => h.1 e.symm)]
    simp [lastDot, hn ext h]
  | c :: pre, ext, h => by
    rw [List.cons_append, lastDot, lastDot_ext pre ext h]
    rfl

theorem lastDot_none : ∀ l : List Char, '.' ∉ l → lastDot l = none
  | [], _ => rfl
  | c :: l, h => by
    rw [List.mem_cons, not_or] at h
    simp only [lastDot, lastDot_none l h.2]
    rw [if_neg (fun e => h.1 e.symm)]

theorem baseName_dir (dir name : List Char) (h : '/' ∉ name) : baseName (dir ++ '/' :: name) = name := by
  unfold baseName
  rw [List.reverse_append, List.reverse_cons, List.append_assoc, List.takeWhile_append_of_pos]
  · simp
  · intro c hc
    rw [List.mem_reverse] at hc
    simp only [decide_eq_true_iff]
    rintro rfl
    exact h hc

theorem baseName_plain (name : List Char) (h : '/' ∉ name) : baseName name = name := by
  unfold baseName
  have : name.reverse.takeWhile (fun c => decide (c ≠ '/')) = name.reverse := by
    have := List.takeWhile_append_of_pos (p := fun c => decide (c ≠ '/')) (l₁ := name.reverse) (l₂ := []) ?_
    · simpa using this
    intro c hc
    rw [List.mem_reverse] at hc
    simp only [decide_eq_true_iff]
    rintro rfl
    exact h hc
  rw [this, List.reverse_reverse]

/-- C46, C47, what decides the format of a file: the extension, the part of the last component of its path from the last dot on. A name without a dot, one whose only dot
comes first, and one ending with a dot have none. -/
theorem C46_suffix (dir stem ext : List Char) (hs : '/' ∉ stem) (he : '/' ∉ ext ∧ '.' ∉ ext) :
    (stem ≠ [] → ext ≠ [] → pathSuffix (stem ++ '.' :: ext) = '.' :: ext ∧ pathSuffix (dir ++ '/' :: (stem ++ '.' :: ext)) = '.' :: ext) ∧
    pathSuffix (dir ++ '/' :: ext) = [] ∧ pathSuffix (dir ++ '/' :: '.' :: ext) = [] ∧ pathSuffix (dir ++ '/' :: (stem ++ ['.'])) = [] := by
  have hn : '/' ∉ stem ++ '.' :: ext := by simp [hs, he.1]
  refine ⟨?_, ?_, ?_, ?_⟩
  · intro h1 h2
    have hl : 0 < stem.length ∧ 1 < ('.' :: ext).length := ⟨List.length_pos_iff.2 h1, by simpa using List.length_pos_iff.2 h2⟩
    unfold pathSuffix
    rw [baseName_plain _ hn, baseName_dir _ _ hn, lastDot_ext _ _ he.2]
    dsimp only
    rw [if_pos hl]
    exact ⟨rfl, rfl⟩
  · unfold pathSuffix
    rw [baseName_dir _ _ he.1, lastDot_none _ he.2]
  · unfold pathSuffix
    rw [baseName_dir _ _ (by simp [he.1]), show '.' :: ext = [] ++ '.' :: ext from rfl, lastDot_ext _ _ he.2]
    rfl
  · unfold pathSuffix
    rw [baseName_dir _ _ (by simp [hs]), lastDot_ext _ _ (by simp)]
    dsimp only
    rw [if_neg (by simp)]

end LCL.GridIOProps
