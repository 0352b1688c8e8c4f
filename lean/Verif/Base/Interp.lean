import Verif.Base.Num

/-!
# Piecewise linear interpolation (numpy `np.interp`, scipy linear `interp1d`)

These definitions model numpy/scipy, not the repository.
-/

namespace LCL
variable {K : Type} [Field K] [LinearOrder K]

/-- `np.interp` on sorted knots `xs` with values `ys`, for `u` not below the first knot: on the
segment `[xs[j], xs[j+1])` the linear interpolant; the last value at and beyond the last knot. -/
noncomputable def interpAt : List K → List K → K → K
  | x0 :: x1 :: xs, y0 :: y1 :: ys, u =>
    if u < x1 then y0 + (y1 - y0) / (x1 - x0) * (u - x0) else interpAt (x1 :: xs) (y1 :: ys) u
  | _, y :: _, _ => y
  | _, [], _ => 0

/-- `np.interp(u, xs, ys, left=left, right=right)` for sorted `xs`. -/
noncomputable def npInterp (xs ys : List K) (left right : K) (u : K) : K :=
  match xs.head?, xs.getLast? with
  | some a, some b => if u < a then left else if b < u then right else interpAt xs ys u
  | _, _ => left

variable [IsStrictOrderedRing K]

theorem segment_bounds {x0 x1 y0 y1 u lo hi : K} (h0 : x0 ≤ u) (h1 : u < x1) (l0 : lo ≤ y0) (l1 : lo ≤ y1)
    (r0 : y0 ≤ hi) (r1 : y1 ≤ hi) :
    lo ≤ y0 + (y1 - y0) / (x1 - x0) * (u - x0) ∧ y0 + (y1 - y0) / (x1 - x0) * (u - x0) ≤ hi := by
  have hd : 0 < x1 - x0 := by linarith
  have e : y0 + (y1 - y0) / (x1 - x0) * (u - x0) = ((x1 - u) * y0 + (u - x0) * y1) / (x1 - x0) := by
    field_simp; ring
  rw [e, le_div_iff₀ hd, div_le_iff₀ hd]
  constructor <;> nlinarith

theorem segment_mono {x0 x1 y0 y1 u v : K} (h0 : x0 ≤ u) (huv : u ≤ v) (h1 : v < x1) (hy : y0 ≤ y1) :
    y0 + (y1 - y0) / (x1 - x0) * (u - x0) ≤ y0 + (y1 - y0) / (x1 - x0) * (v - x0) := by
  have hd : 0 ≤ (y1 - y0) / (x1 - x0) := div_nonneg (by linarith) (by linarith)
  have := mul_le_mul_of_nonneg_left (show u - x0 ≤ v - x0 by linarith) hd
  linarith

/-- The interpolant stays between any bounds on the values. -/
theorem interpAt_bounds {lo hi : K} : ∀ (xs ys : List K) (u : K), xs.length = ys.length → ys ≠ [] →
    (∀ x, xs.head? = some x → x ≤ u) → (∀ y ∈ ys, lo ≤ y ∧ y ≤ hi) →
    lo ≤ interpAt xs ys u ∧ interpAt xs ys u ≤ hi := by
  intro xs
  induction xs with
  | nil => intro ys u hl hne; exact absurd (List.length_eq_zero_iff.1 hl.symm) hne
  | cons x0 xs ih =>
    intro ys u hl hne hu hy
    match xs, ys, hl with
    | [], [y], _ => exact hy y (by simp)
    | x1 :: xs, y0 :: y1 :: ys, hl =>
      unfold interpAt
      have a0 := hy y0 (by simp)
      have a1 := hy y1 (by simp)
      split
      · rename_i h
        exact segment_bounds (hu x0 rfl) h a0.1 a1.1 a0.2 a1.2
      · rename_i h
        exact ih (y1 :: ys) u (by simpa using hl) (by simp) (by simp; exact not_lt.1 h)
          (fun y hyy => hy y (List.mem_cons_of_mem _ hyy))

/-- Monotone values give a monotone interpolant. -/
theorem interpAt_mono : ∀ (xs ys : List K) (u v : K), xs.length = ys.length → ys.Pairwise (· ≤ ·) →
    (∀ x, xs.head? = some x → x ≤ u) → u ≤ v → interpAt xs ys u ≤ interpAt xs ys v := by
  intro xs
  induction xs with
  | nil => intro ys u v hl _ _ _; rw [List.length_eq_zero_iff.1 hl.symm]; simp [interpAt]
  | cons x0 xs ih =>
    intro ys u v hl hy hu huv
    match xs, ys, hl with
    | [], [y], _ => simp [interpAt]
    | x1 :: xs, y0 :: y1 :: ys, hl =>
      have hy' := (List.pairwise_cons.1 hy)
      have h01 : y0 ≤ y1 := hy'.1 y1 (by simp)
      unfold interpAt
      by_cases hv : v < x1
      · have hu1 : u < x1 := lt_of_le_of_lt huv hv
        rw [if_pos hv, if_pos hu1]
        exact segment_mono (hu x0 rfl) huv hv h01
      · rw [if_neg hv]
        by_cases hu1 : u < x1
        · rw [if_pos hu1]
          refine le_trans (segment_bounds (lo := y0) (hu x0 rfl) hu1 le_rfl h01 h01 le_rfl).2 ?_
          obtain ⟨hi, hhi⟩ : ∃ hi, ∀ y ∈ (y1 :: ys), y ≤ hi := by
            clear ih hl hy hy' h01
            induction ys with
            | nil => exact ⟨y1, by simp⟩
            | cons z ys ih2 =>
              obtain ⟨hi, h⟩ := ih2
              refine ⟨max hi z, ?_⟩
              intro y hyy
              simp only [List.mem_cons] at hyy
              rcases hyy with rfl | rfl | hyy
              · exact le_max_of_le_left (h _ (by simp))
              · exact le_max_right _ _
              · exact le_max_of_le_left (h _ (by simp [hyy]))
          refine (interpAt_bounds (lo := y1) (hi := hi) (x1 :: xs) (y1 :: ys) v (by simpa using hl) (by simp)
            (by simp; exact not_lt.1 hv) ?_).1
          intro y hyy
          refine ⟨?_, hhi y hyy⟩
          rcases List.mem_cons.1 hyy with rfl | hm
          · exact le_rfl
          · exact (List.pairwise_cons.1 hy'.2).1 y hm
        · rw [if_neg hu1]
          exact ih (y1 :: ys) u v (by simpa using hl) hy'.2 (by simp; exact not_lt.1 hu1) huv

/-- Interpolating back with the knots and values exchanged is the identity, when the inner values
are strictly increasing (the inner knots may repeat). -/
theorem interpAt_inverse : ∀ (cs xs : List K) (u : K), cs.length = xs.length → xs.Pairwise (· < ·) →
    (∀ c, cs.head? = some c → c ≤ u) → (∀ c, cs.getLast? = some c → u ≤ c) → cs ≠ [] →
    interpAt xs cs (interpAt cs xs u) = u := by
  intro cs
  induction cs with
  | nil => intro xs u _ _ _ _ h; exact absurd rfl h
  | cons c0 cs ih =>
    intro xs u hl hx hu hlast _
    match cs, xs, hl with
    | [], [x], _ =>
      simp only [interpAt]
      exact le_antisymm (hu c0 rfl) (hlast c0 rfl)
    | c1 :: cs, x0 :: x1 :: xs, hl =>
      have hx' := List.pairwise_cons.1 hx
      have h01 : x0 < x1 := hx'.1 x1 (by simp)
      have hc0 := hu c0 rfl
      by_cases h : u < c1
      · have e : interpAt (c0 :: c1 :: cs) (x0 :: x1 :: xs) u = x0 + (x1 - x0) / (c1 - c0) * (u - c0) := by
          rw [interpAt, if_pos h]
        have hd : 0 < c1 - c0 := by linarith
        have hlt : x0 + (x1 - x0) / (c1 - c0) * (u - c0) < x1 := by
          have : (x1 - x0) / (c1 - c0) * (u - c0) < (x1 - x0) / (c1 - c0) * (c1 - c0) :=
            mul_lt_mul_of_pos_left (by linarith) (div_pos (by linarith) hd)
          rw [div_mul_cancel₀ _ hd.ne'] at this
          linarith
        rw [e, interpAt, if_pos hlt]
        have hdx : x1 - x0 ≠ 0 := by linarith [h01] |> fun (h : 0 < x1 - x0) => h.ne'
        field_simp
        ring
      · have e : interpAt (c0 :: c1 :: cs) (x0 :: x1 :: xs) u = interpAt (c1 :: cs) (x1 :: xs) u := by
          rw [interpAt, if_neg h]
        rw [e]
        have hge : x1 ≤ interpAt (c1 :: cs) (x1 :: xs) u := by
          obtain ⟨hi, hhi⟩ : ∃ hi, ∀ y ∈ (x1 :: xs), y ≤ hi := by
            clear ih hl hx hx' h01 e
            induction xs with
            | nil => exact ⟨x1, by simp⟩
            | cons z ys ih2 =>
              obtain ⟨hi, h⟩ := ih2
              refine ⟨max hi z, ?_⟩
              intro y hyy
              simp only [List.mem_cons] at hyy
              rcases hyy with rfl | rfl | hyy
              · exact le_max_of_le_left (h _ (by simp))
              · exact le_max_right _ _
              · exact le_max_of_le_left (h _ (by simp [hyy]))
          refine (interpAt_bounds (lo := x1) (hi := hi) (c1 :: cs) (x1 :: xs) u (by simpa using hl) (by simp)
            (by simp; exact not_lt.1 h) ?_).1
          intro y hyy
          refine ⟨?_, hhi y hyy⟩
          rcases List.mem_cons.1 hyy with rfl | hm
          · exact le_rfl
          · exact ((List.pairwise_cons.1 hx'.2).1 y hm).le
        rw [interpAt, if_neg (not_lt.2 hge)]
        exact ih (x1 :: xs) u (by simpa using hl) hx'.2 (by simp; exact not_lt.1 h)
          (by intro c hc; exact hlast c (by rw [List.getLast?_cons_cons]; exact hc)) (by simp)

omit [IsStrictOrderedRing K] in
/-- At a knot of strictly increasing knots the interpolant takes the tabulated value. -/
theorem interpAt_knot : ∀ (xs ys : List K) (k : Nat) (x y : K), xs.length = ys.length → xs.Pairwise (· < ·) →
    xs[k]? = some x → ys[k]? = some y → interpAt xs ys x = y := by
  intro xs
  induction xs with
  | nil => intro ys k x y _ _ h; simp at h
  | cons x0 xs ih =>
    intro ys k x y hl hx hk hy
    match xs, ys, hl with
    | [], [y0], _ =>
      cases k with
      | zero => simp at hy; simp [interpAt, hy]
      | succ k => simp at hk
    | x1 :: xs, y0 :: y1 :: ys, hl =>
      have hx' := List.pairwise_cons.1 hx
      cases k with
      | zero =>
        simp at hk hy; subst hk; subst hy
        rw [interpAt, if_pos (hx'.1 x1 (by simp))]; simp
      | succ k =>
        simp only [List.getElem?_cons_succ] at hk hy
        have hge : x1 ≤ x := by
          cases k with
          | zero => simp at hk; exact hk.le
          | succ k =>
            simp only [List.getElem?_cons_succ] at hk
            exact ((List.pairwise_cons.1 hx'.2).1 x (List.mem_of_getElem? hk)).le
        rw [interpAt, if_neg (not_lt.2 hge)]
        exact ih (y1 :: ys) k x y (by simpa using hl) hx'.2 hk hy

end LCL
