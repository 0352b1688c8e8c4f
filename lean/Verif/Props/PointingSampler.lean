import Verif.Model.PointingSampler
import Verif.Lemmas.SkyDisc
import Verif.Props.Samplers2

/-!
# Property C100: positions sampled around the pointings of a survey
-/

namespace LCL.PointingProps
open LCL LCL.GraphSpec LCL.GraphLemmas LCL.NodeSpec LCL.NodeLemmas LCL.SamplerSpec LCL.ComputeProps LCL.SamplerProps LCL.Pointing
variable {σ ρ : Type}

theorem reachable_set {α : Type} {s : GState α} (h : Reachable s) (n p : Name) (v : Val α) (f : Bool) : Reachable (s.set n p v f).1 := by
  obtain ⟨k, s0, ops, h1, h2⟩ := h
  refine ⟨k, s0, ops ++ [.set n p v f], h1, ?_⟩
  unfold run
  rw [List.foldl_append]
  unfold run at h2
  rw [← h2]
  rfl

theorem reachable_saveAll {α : Type} (nd : PNode α σ) : ∀ (l : List (Name × Val α)) (s : GState α), Reachable s →
    Reachable (Heap.saveAllS nd s l).1 := by
  intro l
  induction l with
  | nil => intro s h; exact h
  | cons q l ih =>
    intro s h
    have hq := reachable_set h nd.str q.1 q.2 false
    unfold Heap.saveAllS
    split
    · rename_i s1 he; rw [he] at hq; exact ih _ hq
    · rename_i s1 e he; rw [he] at hq; exact hq

theorem reachable_save {α : Type} (nd : PNode α σ) (s : GState α) (h : Reachable s) (v : Val α) : Reachable (Heap.saveResultsS nd s v).1 := by
  unfold Heap.saveResultsS
  split
  · exact reachable_set h _ _ _ _
  · split
    · split
      · exact h
      · exact reachable_saveAll nd _ s h
    · exact h

/-- Saving results fixes nothing and keeps the number of samples. -/
theorem save_fixed {α : Type} (nd : PNode α σ) (hnd : nd.outputs.Nodup) (s s' : GState α) (h : Reachable s) (v : Val α)
    (hv : Heap.saveResultsS nd s v = (s', none)) : s'.numSamples = s.numSamples ∧ ∀ m p, isFixed s' m p ↔ isFixed s m p := by
  obtain ⟨a1, _⟩ := saveResults_wrote (bare nd) _ _ v (reachable_wf h) hnd
    (saveResultsS_ok (bare nd) () v s s' ((saveResultsS_congr nd (bare nd) rfl rfl s _).trans hv))
  refine ⟨a1.num, fun m p => ?_⟩
  have hm : fixedOf s' m = fixedOf s m := a1.fixed m
  rw [isFixed_iff, isFixed_iff, hm]

/-- The values of a column at the given rows, as the sampler holds them. -/
theorem col_packed {n : Nat} (inds : List Nat) (hl : inds.length = n) (hn : 1 ≤ n) (col : List ℝ) (hlt : ∀ i ∈ inds, i < col.length) (v : Val ℝ)
    (hf : Fits n v) (h : ∀ (k i : Nat), inds[k]? = some i → sampleAt n v k = (col.map Val.scalar)[i]?) :
    v = packed n (inds.map fun i => .scalar (col.getD i 0)) := by
  have hrows : rowsOf n v = inds.map fun i => .scalar (col.getD i 0) := by
    apply List.ext_getElem?
    intro k
    by_cases hk : k < n
    · have hi : inds[k]? = some inds[k] := List.getElem?_eq_getElem (by omega)
      have := h k _ hi
      unfold sampleAt at this
      have hl' := hlt inds[k] (List.getElem_mem _)
      rw [this, List.getElem?_map, List.getElem?_map, hi, List.getElem?_eq_getElem hl']
      simp [List.getD_eq_getElem?_getD, List.getElem?_eq_getElem hl']
    · rw [List.getElem?_eq_none (by rw [hf.1]; omega), List.getElem?_eq_none (by simp; omega)]
  unfold packed
  unfold rowsOf at hrows
  by_cases h1 : n = 1
  · simp only [h1, if_true] at hrows ⊢
    rw [← hrows]
  · simp only [h1, if_false] at hrows ⊢
    obtain ⟨l, rfl⟩ := hf.2 h1
    rw [← hrows]; rfl

theorem shift_packed {n : Nat} (hn : 1 ≤ n) (xs offs : List ℝ) (hx : xs.length = n) (ho : offs.length = n) :
    shift false (packed n (xs.map .scalar)) offs = .ok (.arr ((List.zipWith (· + ·) xs offs).map .scalar)) := by
  unfold packed
  by_cases h1 : n = 1
  · simp only [h1, if_true]
    subst h1
    match xs, hx, offs, ho with
    | [x], _, [o], _ => simp [shift]
  · simp only [h1, if_false, shift, Bool.false_eq_true]
    congr 2
    rw [List.zipWith_map_left, List.map_zipWith]

/-- The three outputs. -/
def names : List Name := ["ra".toList, "dec".toList, "time".toList]

theorem init_ok {sr rad : Option ℝ} {ra dec time : List ℝ} {a b ord : Bool} {P : Pointing} (h : Pointing.init sr rad ra dec time a b ord = .ok P) :
    0 ≤ P.radius ∧ (rad = some P.radius ∨ (rad = none ∧ sr = some P.radius)) ∧ P.raInt = a ∧ P.decInt = b ∧
      P.table = ⟨Pointing.columns ra dec time, ra.length, ord, 0⟩ ∧ 0 < ra.length ∧ dec.length = ra.length ∧ time.length = ra.length := by
  unfold Pointing.init at h
  split at h
  · cases h
  · rename_i x hx
    split at h
    · cases h
    · rename_i hpos
      split at h
      · cases h
      · rename_i t ht
        cases h
        unfold TableSampler.init Pointing.columns at ht
        simp only at ht
        split at ht
        · rename_i hall
          split at ht
          · cases ht
          · cases ht
            simp at hall
            refine ⟨le_of_not_gt hpos, (by cases rad with | some y => exact Or.inl hx | none => exact Or.inr ⟨rfl, hx⟩), rfl, rfl, by simp [Pointing.columns], ?_, hall.1, hall.2⟩
            rename_i hne
            simp at hne
            exact List.length_pos_iff.2 hne
        · cases ht

theorem table_ok (nd : PNode ℝ σ) (ho : nd.outputs = names) (hd : '.' ∉ nd.str) {ra dec time : List ℝ} (h0 : 0 < ra.length)
    (h1 : dec.length = ra.length) (h2 : time.length = ra.length) : TableOK nd (Pointing.columns ra dec time) ra.length := by
  refine ⟨ho, ?_, by simp [Pointing.columns], hd, ?_, ?_, h0⟩
  · simp only [Pointing.columns, Dict.keys, List.map_cons, List.map_nil]; decide
  · simp only [Pointing.columns, Dict.keys, List.map_cons, List.map_nil]; decide
  · intro q hq
    simp [Pointing.columns] at hq
    rcases hq with rfl | rfl | rfl <;> simp [h1, h2]

theorem names_nodup : names.Nodup := by unfold names; decide

theorem zip_get {f : ℝ → ℝ → ℝ} {xs ys : List ℝ} {n k : Nat} (hx : xs.length = n) (hy : ys.length = n) (hk : k < n) :
    ∃ x y, x ∈ xs ∧ y ∈ ys ∧ xs[k]? = some x ∧ ys[k]? = some y ∧ (List.zipWith f xs ys)[k]? = some (f x y) := by
  have h1 : k < xs.length := by omega
  have h2 : k < ys.length := by omega
  refine ⟨xs[k], ys[k], List.getElem_mem _, List.getElem_mem _, List.getElem?_eq_getElem h1, List.getElem?_eq_getElem h2, ?_⟩
  rw [List.getElem?_zipWith, List.getElem?_eq_getElem h1, List.getElem?_eq_getElem h2]

/-- The offset lies in the disc. -/
theorem offset_disc (R u v : ℝ) (h0 : 0 ≤ u) (h1 : u < 1) : (raOffset R u v) ^ 2 + (decOffset R u v) ^ 2 ≤ R ^ 2 := by
  unfold raOffset decOffset
  have : (R * Real.sqrt u * Real.cos (2 * Real.pi * v)) ^ 2 + (R * Real.sqrt u * Real.sin (2 * Real.pi * v)) ^ 2 = R ^ 2 * u := by
    have e := Real.cos_sq_add_sin_sq (2 * Real.pi * v)
    have q := Real.sq_sqrt h0
    calc _ = R ^ 2 * (Real.sqrt u) ^ 2 * (Real.cos (2 * Real.pi * v) ^ 2 + Real.sin (2 * Real.pi * v) ^ 2) := by ring
      _ = _ := by rw [e, q]; ring
  rw [this]
  nlinarith [sq_nonneg R]

theorem saved_pair (nd : PNode ℝ σ) (ho : nd.outputs = names) (hd : '.' ∉ nd.str) (s : GState ℝ) (hs : Reachable s) (x y z : Val ℝ)
    (hx : Fits s.numSamples x) (hy : Fits s.numSamples y) (hz : Fits s.numSamples z) :
    ∃ s', Heap.saveResultsS nd s (.arr [x, y, z]) = (s', none) ∧
      (isFixed s nd.str "ra".toList ∨ readParam s' nd.str "ra".toList = some x) ∧
      (isFixed s nd.str "dec".toList ∨ readParam s' nd.str "dec".toList = some y) ∧
      (isFixed s nd.str "time".toList ∨ readParam s' nd.str "time".toList = some z) ∧
      ∀ m p, (m ≠ nd.str ∨ p ∉ names ∨ isFixed s m p) → readParam s' m p = readParam s m p := by
  obtain ⟨s', h1, h2, h3⟩ := save_many nd (by rw [ho]; decide) (by rw [ho]; exact names_nodup) hd (by rw [ho]; unfold names; decide) s hs [x, y, z]
    (by rw [ho]; rfl) (by
      intro v hv
      simp only [List.mem_cons, List.not_mem_nil, or_false] at hv
      rcases hv with rfl | rfl | rfl <;> assumption)
  rw [ho] at h2 h3
  exact ⟨s', h1, h2 0 _ _ rfl rfl, h2 1 _ _ rfl rfl, h2 2 _ _ rfl rfl, h3⟩

/-- C100, for a positive radius and Pointing.columns of floats, from any position of the cursor (hence after any history of calls). A call either takes
whole rows of the survey, one per sample (in order: the next ones), stores their times unchanged and stores positions that are at most the radius away
from the row's pointing, measured on the sky; or, in order, the rows have run out, the call raises `IndexError` and nothing has changed.
A declination stays between -90 and 90 when the pointing is at least the radius away from the poles. Nothing but the three
outputs changes, and those the user fixed do not. -/
theorem C100_offset_partial (G : IntGen ρ) (U : UnitGen ρ ℝ) (nd : PNode ℝ σ) (ho : nd.outputs = names) (hd : '.' ∉ nd.str) (surveyRadius radius : Option ℝ)
    (ra dec time : List ℝ) (ord : Bool) (P : Pointing) (hP : Pointing.init surveyRadius radius ra dec time false false ord = .ok P)
    (hrad : 0 < P.radius) (c : Nat) (r : ρ) (s : GState ℝ) (hs : Reachable s) :
    (ord = true ∧ ra.length < c + s.numSamples ∧
      Pointing.compute G U { P with table := { P.table with next := c } } nd r s =
        (({ P with table := { P.table with next := c } }, r), s, .error .indexError)) ∨
    ∃ r' s' res, ∃ inds : List Nat, ∃ ras decs : List ℝ, Pointing.compute G U { P with table := { P.table with next := c } } nd r s =
        (({ P with table := { P.table with next := if ord then c + s.numSamples else c } }, r'), s', .ok res) ∧
      inds.length = s.numSamples ∧ ras.length = s.numSamples ∧ decs.length = s.numSamples ∧
      (ord = true → ∀ k, k < s.numSamples → inds[k]? = some (c + k)) ∧
      (isFixed s nd.str "time".toList ∨ ∃ v, readParam s' nd.str "time".toList = some v ∧
        ∀ (k i : Nat), inds[k]? = some i → sampleAt s.numSamples v k = (time[i]?).map .scalar) ∧
      (isFixed s nd.str "ra".toList ∨ readParam s' nd.str "ra".toList = some (.arr (ras.map .scalar))) ∧
      (isFixed s nd.str "dec".toList ∨ readParam s' nd.str "dec".toList = some (.arr (decs.map .scalar))) ∧
      (∀ k, k < s.numSamples → ∃ i a d a0 d0, inds[k]? = some i ∧ ras[k]? = some a ∧ decs[k]? = some d ∧ ra[i]? = some a0 ∧ dec[i]? = some d0 ∧
        Sky.angle (Sky.dir a d) (Sky.dir a0 d0) ≤ Sky.rad P.radius ∧ (|d0| + P.radius ≤ 90 → |d| ≤ 90)) ∧
      ∀ m p, (m ≠ nd.str ∨ p ∉ names ∨ isFixed s m p) → readParam s' m p = readParam s m p := by
  obtain ⟨hr0, _, hI1, hI2, htab, hpos, hdl, htl⟩ := init_ok hP
  have hok := table_ok nd ho hd hpos hdl htl
  have hn : 1 ≤ s.numSamples := (reachable_wf hs).pos
  have hcols : ({ P.table with next := c } : TableSampler ℝ).cols = Pointing.columns ra dec time := by rw [htab]
  have hrows : ({ P.table with next := c } : TableSampler ℝ).rows = ra.length := by rw [htab]
  have hord : ({ P.table with next := c } : TableSampler ℝ).inOrder = ord := by rw [htab]
  unfold Pointing.compute
  dsimp only
  rcases table_step_full G nd hok { P.table with next := c } hcols hrows r s hs with ⟨h1, h2, h3⟩ | ⟨r1, inds, res, s1, h1, h2, h3, h4, h5, h6, h7, h8⟩
  · left
    rw [h3]
    exact ⟨by rw [← hord]; exact h1, h2, rfl⟩
  · right
    rw [h1]
    dsimp only
    rw [if_pos hrad]
    obtain ⟨vs, rfl, hvl, hv⟩ := h7
    obtain ⟨v1, e1, f1, g1⟩ := hv 0 _ _ rfl
    obtain ⟨v2, e2, f2, g2⟩ := hv 1 _ _ rfl
    obtain ⟨v3, e3, f3, g3⟩ := hv 2 _ _ rfl
    have hvs : vs = [v1, v2, v3] := by
      match vs, hvl, e1, e2, e3 with
      | [_, _, _], _, e1, e2, e3 =>
        simp at e1 e2 e3
        rw [e1, e2, e3]
    subst hvs
    have p1 := col_packed inds h3 hn ra h4 v1 f1 g1
    have p2 := col_packed inds h3 hn dec (fun i hi => by rw [hdl]; exact h4 i hi) v2 f2 g2
    generalize hd1 : U.draw r1 s.numSamples = D1
    generalize hd2 : U.draw D1.1 s.numSamples = D2
    have l1 : D1.2.length = s.numSamples := by rw [← hd1]; exact U.length _ _
    have l2 : D2.2.length = s.numSamples := by rw [← hd2]; exact U.length _ _
    have b0 : ∀ u ∈ D1.2, 0 ≤ u := by rw [← hd1]; exact U.nonneg _ _
    have b1 : ∀ u ∈ D1.2, u < 1 := by rw [← hd1]; exact U.lt_one _ _
    have q1 : shift P.raInt v1 (List.zipWith (raOffset P.radius) D1.2 D2.2) = .ok (.arr
        ((List.zipWith (· + ·) (inds.map fun i => ra.getD i 0) (List.zipWith (raOffset P.radius) D1.2 D2.2)).map .scalar)) := by
      rw [hI1, p1]
      have := shift_packed hn (inds.map fun i => ra.getD i 0) (List.zipWith (raOffset P.radius) D1.2 D2.2) (by simp [h3]) (by simp [l1, l2])
      rw [List.map_map] at this
      exact this
    have q2 : shift P.decInt v2 (List.zipWith (decOffset P.radius) D1.2 D2.2) = .ok (.arr
        ((List.zipWith (· + ·) (inds.map fun i => dec.getD i 0) (List.zipWith (decOffset P.radius) D1.2 D2.2)).map .scalar)) := by
      rw [hI2, p2]
      have := shift_packed hn (inds.map fun i => dec.getD i 0) (List.zipWith (decOffset P.radius) D1.2 D2.2) (by simp [h3]) (by simp [l1, l2])
      rw [List.map_map] at this
      exact this
    have hs1 : Reachable s1 := by have := reachable_save nd s hs (.arr [v1, v2, v3]); rw [h8] at this; exact this
    obtain ⟨hnum, hfix⟩ := save_fixed nd (by rw [ho]; exact names_nodup) s s1 hs _ h8
    generalize hras : List.zipWith (· + ·) (inds.map fun i => ra.getD i 0) (List.zipWith (raOffset P.radius) D1.2 D2.2) = ras at q1
    generalize hdecs : List.zipWith (· + ·) (inds.map fun i => dec.getD i 0) (List.zipWith (decOffset P.radius) D1.2 D2.2) = decs at q2
    have lras : ras.length = s.numSamples := by rw [← hras]; simp [l1, l2, h3]
    have ldecs : decs.length = s.numSamples := by rw [← hdecs]; simp [l1, l2, h3]
    have fa : ∀ xs : List ℝ, xs.length = s.numSamples → Fits s1.numSamples (.arr (xs.map .scalar) : Val ℝ) := by
      intro xs hx
      rw [hnum]
      refine ⟨?_, fun _ => ⟨_, rfl⟩⟩
      unfold rowsOf
      split
      · rename_i h; simp [h]
      · simp [cells, hx]
    obtain ⟨s2, w1, w2, w3, w4, w5⟩ := saved_pair nd ho hd s1 hs1 _ _ v3 (fa ras lras) (fa decs ldecs) (by rw [hnum]; exact f3)
    have hres : resave { P with table := { P.table with next := c } } nd s1 D1.2 D2.2 (.arr [v1, v2, v3]) =
        (s2, .ok (.arr [.arr (ras.map .scalar), .arr (decs.map .scalar), v3])) := by
      unfold resave
      dsimp only
      rw [q1]
      dsimp only
      rw [q2]
      dsimp only
      rw [w1]
    refine ⟨D2.1, s2, .arr [.arr (ras.map .scalar), .arr (decs.map .scalar), v3], inds, ras, decs, ?_, h3, lras, ldecs, ?_, ?_, ?_, ?_, ?_, ?_⟩
    · rw [hres]
      rw [hord]
    · intro hb k hk
      obtain ⟨_, hi⟩ := h2 (hord.trans hb)
      rw [hi, List.getElem?_range' hk]
      simp
    · rcases w4 with h | h
      · exact Or.inl ((hfix _ _).1 h)
      · refine Or.inr ⟨v3, h, ?_⟩
        intro k i hk
        rw [g3 k i hk, List.getElem?_map]
    · rcases w2 with h | h
      · exact Or.inl ((hfix _ _).1 h)
      · exact Or.inr h
    · rcases w3 with h | h
      · exact Or.inl ((hfix _ _).1 h)
      · exact Or.inr h
    · intro k hk
      have hki : k < inds.length := by omega
      have hi : inds[k]? = some inds[k] := List.getElem?_eq_getElem hki
      have hin := h4 inds[k] (List.getElem_mem _)
      obtain ⟨u, v, hu, _, ku, kv, _⟩ := zip_get (f := raOffset P.radius) l1 l2 hk
      have era : ra[inds[k]]? = some ra[inds[k]] := List.getElem?_eq_getElem hin
      have edec : dec[inds[k]]? = some (dec[inds[k]]'(by omega)) := List.getElem?_eq_getElem _
      refine ⟨inds[k], ra[inds[k]] + raOffset P.radius u v, dec[inds[k]]'(by omega) + decOffset P.radius u v, _, _, hi, ?_, ?_, era, edec, ?_, ?_⟩
      · rw [← hras, List.getElem?_zipWith, List.getElem?_zipWith, List.getElem?_map, hi, ku, kv]
        simp [List.getD_eq_getElem?_getD, era]
      · rw [← hdecs, List.getElem?_zipWith, List.getElem?_zipWith, List.getElem?_map, hi, ku, kv]
        simp [List.getD_eq_getElem?_getD, edec]
      · exact Sky.disc_angle _ _ _ _ _ hrad.le (offset_disc _ _ _ (b0 u hu) (b1 u hu))
      · intro hle
        have hsq : decOffset P.radius u v ^ 2 ≤ P.radius ^ 2 := by
          have := offset_disc P.radius u v (b0 u hu) (b1 u hu)
          nlinarith [sq_nonneg (raOffset P.radius u v)]
        have h9 : |decOffset P.radius u v| ≤ P.radius := abs_le_of_sq_le_sq hsq hrad.le
        calc |_ + decOffset P.radius u v| ≤ |_| + |decOffset P.radius u v| := abs_add_le _ _
          _ ≤ 90 := by
            linarith
    · intro m p hc
      rw [w5 m p (by
        rcases hc with h | h | h
        · exact Or.inl h
        · exact Or.inr (Or.inl h)
        · exact Or.inr (Or.inr ((hfix _ _).2 h)))]
      apply h6 m p
      rcases hc with h | h | h
      · exact Or.inl h
      · exact Or.inr (Or.inl h)
      · exact Or.inr (Or.inr h)

/-- C100, radius zero: the rows themselves are stored, whatever the dtype and the number of samples. -/
theorem C100_centre (G : IntGen ρ) (U : UnitGen ρ ℝ) (nd : PNode ℝ σ) (ho : nd.outputs = names) (hd : '.' ∉ nd.str) (surveyRadius radius : Option ℝ)
    (ra dec time : List ℝ) (raInt decInt ord : Bool) (P : Pointing) (hP : Pointing.init surveyRadius radius ra dec time raInt decInt ord = .ok P)
    (hrad : P.radius = 0) (c : Nat) (r : ρ) (s : GState ℝ) (hs : Reachable s) :
    (ord = true ∧ ra.length < c + s.numSamples ∧
      Pointing.compute G U { P with table := { P.table with next := c } } nd r s =
        (({ P with table := { P.table with next := c } }, r), s, .error .indexError)) ∨
    ∃ r' s' res, ∃ inds : List Nat, Pointing.compute G U { P with table := { P.table with next := c } } nd r s =
        (({ P with table := { P.table with next := if ord then c + s.numSamples else c } }, r'), s', .ok res) ∧
      inds.length = s.numSamples ∧ (∀ i ∈ inds, i < ra.length) ∧
      (ord = true → ∀ k, k < s.numSamples → inds[k]? = some (c + k)) ∧
      (∀ name col, (name, col) ∈ [("ra".toList, ra), ("dec".toList, dec), ("time".toList, time)] →
        isFixed s nd.str name ∨ ∃ v, readParam s' nd.str name = some v ∧
          ∀ (k i : Nat), inds[k]? = some i → sampleAt s.numSamples v k = (col[i]?).map .scalar) ∧
      ∀ m p, (m ≠ nd.str ∨ p ∉ names ∨ isFixed s m p) → readParam s' m p = readParam s m p := by
  obtain ⟨hr0, _, hI1, hI2, htab, hpos, hdl, htl⟩ := init_ok hP
  have hok := table_ok nd ho hd hpos hdl htl
  have hcols : ({ P.table with next := c } : TableSampler ℝ).cols = Pointing.columns ra dec time := by rw [htab]
  have hrows : ({ P.table with next := c } : TableSampler ℝ).rows = ra.length := by rw [htab]
  have hord : ({ P.table with next := c } : TableSampler ℝ).inOrder = ord := by rw [htab]
  unfold Pointing.compute
  dsimp only
  rcases table_step_full G nd hok { P.table with next := c } hcols hrows r s hs with ⟨h1, h2, h3⟩ | ⟨r1, inds, res, s1, h1, h2, h3, h4, h5, h6, h7, h8⟩
  · left
    rw [h3]
    exact ⟨by rw [← hord]; exact h1, h2, rfl⟩
  · right
    rw [h1]
    dsimp only
    rw [if_neg (by rw [hrad]; exact lt_irrefl _)]
    refine ⟨r1, s1, res, inds, by rw [hord], h3, h4, ?_, ?_, h6⟩
    · intro hb k hk
      obtain ⟨_, hi⟩ := h2 (hord.trans hb)
      rw [hi, List.getElem?_range' hk]
      simp
    · intro name col hm
      have hm' : (name, col.map Val.scalar) ∈ Pointing.columns ra dec time := by
        unfold Pointing.columns
        simp only [List.mem_cons, Prod.mk.injEq, List.not_mem_nil, or_false] at hm ⊢
        rcases hm with ⟨h, rfl⟩ | ⟨h, rfl⟩ | ⟨h, rfl⟩
        · exact Or.inl ⟨h, rfl⟩
        · exact Or.inr (Or.inl ⟨h, rfl⟩)
        · exact Or.inr (Or.inr ⟨h, rfl⟩)
      rcases h5 name _ hm' with h | ⟨v, h, _, h'⟩
      · exact Or.inl h
      · refine Or.inr ⟨v, h, ?_⟩
        intro k i hk
        rw [h' k i hk, List.getElem?_map]

/-- The constructor: the radius given, or else that of the survey; none, or a negative one, is rejected. -/
theorem C100_radius (surveyRadius radius : Option ℝ) (ra dec time : List ℝ) (raInt decInt ord : Bool) (h0 : 0 < ra.length)
    (h1 : dec.length = ra.length) (h2 : time.length = ra.length) :
    (∀ P, Pointing.init surveyRadius radius ra dec time raInt decInt ord = .ok P →
      (radius = some P.radius ∨ (radius = none ∧ surveyRadius = some P.radius)) ∧ 0 ≤ P.radius) ∧
    ((∃ e, Pointing.init surveyRadius radius ra dec time raInt decInt ord = .error e) ↔
      (radius = none ∧ surveyRadius = none) ∨ (∃ x, radius = some x ∧ x < 0) ∨ (radius = none ∧ ∃ x, surveyRadius = some x ∧ x < 0)) := by
  have htab : TableSampler.init (Pointing.columns ra dec time) ord = .ok ⟨Pointing.columns ra dec time, ra.length, ord, 0⟩ := by
    unfold TableSampler.init Pointing.columns
    simp [h1, h2]
    intro h; rw [h] at h0; simp at h0
  constructor
  · intro P hP
    obtain ⟨a, b, _⟩ := init_ok hP
    exact ⟨b, a⟩
  · unfold Pointing.init
    rw [htab]
    cases radius with
    | some x =>
      by_cases hx : x < 0
      · simp [hx]
      · simp [hx]
    | none =>
      cases surveyRadius with
      | none => simp
      | some x =>
        by_cases hx : x < 0
        · simp [hx]
        · simp [hx]

/-- A sampler over two pointings. -/
noncomputable def twoPointings (raInt ord : Bool) (dec : ℝ) : Pointing :=
  ⟨⟨Pointing.columns [10, 20] [dec, dec] [60000, 60001], 2, ord, 0⟩, 1, raInt, false⟩

theorem twoPointings_init (raInt ord : Bool) (dec : ℝ) :
    Pointing.init (some 1) none [10, 20] [dec, dec] [60000, 60001] raInt false ord = .ok (twoPointings raInt ord dec) := by
  unfold Pointing.init
  have : ¬ (1:ℝ) < 0 := by norm_num
  simp only [this, if_false]
  rfl

/-- A node with the three outputs. -/
def pointNode : PNode ℝ Unit :=
  { cls := [], label := some ['t'], isFunc := true, funcName := none, body := none, attrs := [], pos := none,
    str := ['t'], setters := [], argNames := [], outputs := names }

/-- A state of `n` samples. -/
def fresh (n : Nat) : GState ℝ := ⟨n, 0, [], []⟩

/-- A generator whose distance draws are always one quarter (the offsets are half the radius, along right ascension). -/
noncomputable def quarterGen : UnitGen Unit ℝ := ⟨fun _ n => ((), List.replicate n (1/4)), by simp, by
    intro r n u hu; simp at hu; rw [hu.2]; norm_num, by
    intro r n u hu; simp at hu; rw [hu.2]; norm_num⟩

/-- C100 is false of integer columns: with two samples the second step raises `TypeError`, and the state already holds the pointings. -/
theorem C100_integer_counterexample :
    Pointing.init (some 1) none [10, 20] [5, 5] [60000, 60001] true false true = .ok (twoPointings true true 5) ∧
    GState.init 2 = .ok (fresh 2) ∧
    (Pointing.compute zeroGen quarterGen (twoPointings true true 5) pointNode () (fresh 2)).2.2 = .error .typeError ∧
    readParam (Pointing.compute zeroGen quarterGen (twoPointings true true 5) pointNode () (fresh 2)).2.1 ['t'] "ra".toList =
      some (.arr [.scalar 10, .scalar 20]) := by
  have hpos : (twoPointings true true 5).radius > 0 := by change (1:ℝ) > 0; norm_num
  have ht : (twoPointings true true 5).table.compute zeroGen pointNode () (fresh 2) =
    (({ (twoPointings true true 5).table with next := 2 }, ()), ((twoPointings true true 5).table.compute zeroGen pointNode () (fresh 2)).2.1,
      .ok (.arr [.arr [.scalar 10, .scalar 20], .arr [.scalar 5, .scalar 5], .arr [.scalar 60000, .scalar 60001]])) := rfl
  refine ⟨twoPointings_init _ _ _, rfl, ?_, ?_⟩
  · unfold Pointing.compute
    rw [ht]
    dsimp only
    rw [if_pos hpos]
    rfl
  · unfold Pointing.compute
    rw [ht]
    dsimp only
    rw [if_pos hpos]
    rfl

/-- C100 is false of one sample: the position is stored as an array of one number, while the time is a number. -/
theorem C100_single_counterexample :
    ∃ (P : Pointing) (x y : ℝ), Pointing.init (some 1) none [10, 20] [5, 5] [60000, 60001] false false true = .ok P ∧
      GState.init 1 = .ok (fresh 1) ∧
      (Pointing.compute zeroGen quarterGen P pointNode () (fresh 1)).2.2 = .ok (.arr [.arr [.scalar x], .arr [.scalar y], .scalar 60000]) := by
  have hpos : (twoPointings false true 5).radius > 0 := by change (1:ℝ) > 0; norm_num
  have ht : (twoPointings false true 5).table.compute zeroGen pointNode () (fresh 1) =
    (({ (twoPointings false true 5).table with next := 1 }, ()), ((twoPointings false true 5).table.compute zeroGen pointNode () (fresh 1)).2.1,
      .ok (.arr [.scalar 10, .scalar 5, .scalar 60000])) := rfl
  refine ⟨twoPointings false true 5, 10 + raOffset 1 (1/4) (1/4), 5 + decOffset 1 (1/4) (1/4), twoPointings_init _ _ _, rfl, ?_⟩
  unfold Pointing.compute
  rw [ht]
  dsimp only
  rw [if_pos hpos]
  rfl

/-- A generator whose first draws (the distances) and second draws (the angles) are always one quarter: the offset is half the radius towards growing
declination, so a pointing at the pole is moved beyond it. -/
theorem C100_pole_counterexample : ∃ d : ℝ, 90 < d ∧
    ∃ P x, Pointing.init (some 1) none [10, 20] [90, 90] [60000, 60001] false false true = .ok P ∧
      (Pointing.compute zeroGen quarterGen P pointNode () (fresh 1)).2.2 = .ok (.arr [.arr [.scalar x], .arr [.scalar d], .scalar 60000]) := by
  have hpos : (twoPointings false true 90).radius > 0 := by change (1:ℝ) > 0; norm_num
  have ht : (twoPointings false true 90).table.compute zeroGen pointNode () (fresh 1) =
    (({ (twoPointings false true 90).table with next := 1 }, ()), ((twoPointings false true 90).table.compute zeroGen pointNode () (fresh 1)).2.1,
      .ok (.arr [.scalar 10, .scalar 90, .scalar 60000])) := rfl
  refine ⟨90 + decOffset 1 (1/4) (1/4), ?_, twoPointings false true 90, 10 + raOffset 1 (1/4) (1/4), twoPointings_init _ _ _, ?_⟩
  · unfold decOffset
    rw [show 2 * Real.pi * (1/4) = Real.pi / 2 by ring, Real.sin_pi_div_two]
    have : 0 < Real.sqrt (1/4) := Real.sqrt_pos.2 (by norm_num)
    linarith
  · unfold Pointing.compute
    rw [ht]
    dsimp only
    rw [if_pos hpos]
    rfl

/-- The hypotheses of C100 are met. -/
example : ∃ P, Pointing.init (some 1) none [10, 20] [5, 5] [60000, 60001] false false true = .ok P ∧ 0 < P.radius ∧ pointNode.outputs = names ∧
    '.' ∉ pointNode.str ∧ Reachable (fresh 2) :=
  ⟨_, twoPointings_init _ _ _, by change (0:ℝ) < 1; norm_num, rfl, by decide, 2, _, [], rfl, rfl⟩

end LCL.PointingProps
