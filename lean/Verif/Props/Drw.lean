import Verif.Model.Drw
import Mathlib.Tactic.Linarith
import Mathlib.Tactic.FieldSimp

/-!
# Property C55: the damped random walk
-/

namespace LCL.DrwProps
open LCL

/-- One step of a damped random walk: the value `dt` after the value `m`, for the time scale `tau`, the amplitude `sf` and
the random number `u`. -/
noncomputable def decay (m dt tau sf u : ℝ) : ℝ :=
  m * Real.exp (-dt / tau) + sf * Real.sqrt (1 - Real.exp (-2 * dt / tau)) * u

theorem step_eq {m dt tau sf u : ℝ} (ht : 0 < tau) (hd : 0 ≤ dt) : drwStep dt u (tau, sf) (some m) = some (decay m dt tau sf u) := by
  unfold drwStep decay
  dsimp only
  rw [if_neg ht.ne', if_pos]
  rw [sub_nonneg, Real.exp_le_one_iff]
  apply div_nonpos_of_nonpos_of_nonneg _ ht.le
  linarith

theorem loop_row {currT : ℝ} {ps : List (ℝ × ℝ)} {u : Nat → ℝ} {i : Nat} {m : List (Option ℝ)} {times : List ℝ} {rows : List (List (Option ℝ))}
    (h : drwLoop currT ps u i m times = .ok rows) :
    rows.length = times.length ∧
    (∀ (j : Nat) t, times[j]? = some t → rows[j]? = some (List.zipWith (drwStep (t - currT) (u (i + j + 1))) ps
      (match j with | 0 => m | j + 1 => rows.getD j []))) ∧
    (∀ (j : Nat) t, times[j]? = some t → i + j ≠ 0 → currT < t) := by
  induction times generalizing i m rows with
  | nil => unfold drwLoop at h; injection h with h; subst h; simp
  | cons t ts ih =>
    unfold drwLoop at h
    split at h
    · cases h
    rename_i hc
    cases hl : drwLoop currT ps u (i + 1) (List.zipWith (drwStep (t - currT) (u (i + 1))) ps m) ts with
    | error e => rw [hl] at h; cases h
    | ok rest =>
      rw [hl] at h
      injection h with h
      subst h
      obtain ⟨h1, h2, h3⟩ := ih hl
      refine ⟨by simp [h1], ?_, ?_⟩
      · intro j s hs
        cases j with
        | zero => simp only [List.getElem?_cons_zero, Option.some.injEq] at hs; subst hs; rfl
        | succ j =>
          simp only [List.getElem?_cons_succ] at hs ⊢
          rw [h2 j s hs]
          have e : i + 1 + j + 1 = i + (j + 1) + 1 := by omega
          rw [e]
          cases j with
          | zero => rfl
          | succ j => rfl
      · intro j s hs hne
        cases j with
        | zero =>
          simp only [List.getElem?_cons_zero, Option.some.injEq] at hs
          subst hs
          by_contra hn
          exact hc ⟨not_lt.1 hn, by omega⟩
        | succ j => exact h3 j s (by simpa using hs) (by omega)

/-- C55, what holds of the code. The first sample decays from the start over the time elapsed since it; every later
sample decays from the sample before it, but over the time elapsed since the start; later times not after the start are
rejected, and so are arrays of different lengths. What is missing: the elapsed time should be that since the previous
sample (`C55_elapsed_counterexample`), and later times that are not increasing should be rejected
(`C55_increasing_counterexample`). -/
theorem C55_steps_partial {times tau sf : List ℝ} {t0 : ℝ} {u : Nat → ℝ} :
    (sf.length ≠ tau.length → drw times tau sf t0 u = .error .valueError) ∧
    (∀ rows, drw times tau sf t0 u = .ok rows → sf.length = tau.length ∧ rows.length = times.length ∧
      (∀ (j : Nat) t, times[j]? = some t → j ≠ 0 → t0 < t) ∧
      ∀ (w : Nat) (c s : ℝ), tau[w]? = some c → sf[w]? = some s → 0 < c →
        (∀ t, times[0]? = some t → t0 ≤ t → ∃ row, rows[0]? = some row ∧ row[w]? = some (some (decay (u 0 * s) (t - t0) c s (u 1)))) ∧
        (∀ (j : Nat) t prev m, times[j + 1]? = some t → rows[j]? = some prev → prev[w]? = some (some m) →
          ∃ row, rows[j + 1]? = some row ∧ row[w]? = some (some (decay m (t - t0) c s (u (j + 2)))))) := by
  constructor
  · intro h; unfold drw; rw [if_pos h]
  · intro rows h
    unfold drw at h
    split at h
    · cases h
    rename_i hl
    rw [not_not] at hl
    obtain ⟨h1, h2, h3⟩ := loop_row h
    refine ⟨hl, h1, fun j t ht hj => h3 j t ht (by omega), ?_⟩
    intro w c s hc hs hpos
    have hz : (tau.zip sf)[w]? = some (c, s) := by rw [List.getElem?_zip_eq_some]; exact ⟨hc, hs⟩
    constructor
    · intro t ht hge
      refine ⟨_, h2 0 t ht, ?_⟩
      rw [List.getElem?_zipWith, hz, List.getElem?_map, hs]
      exact congrArg some (step_eq hpos (by linarith))
    · intro j t prev m ht hp hm
      refine ⟨_, h2 (j + 1) t ht, ?_⟩
      have hgd : rows.getD j [] = prev := by rw [List.getD_eq_getElem?_getD, hp]; rfl
      dsimp only
      rw [hgd, List.getElem?_zipWith, hz, hm]
      have := h3 (j + 1) t ht (by omega)
      have e : 0 + (j + 1) + 1 = j + 2 := by omega
      rw [e]
      exact congrArg some (step_eq hpos (by linarith))

/-- C55 fails: times that decrease are accepted as long as they come after the start. -/
theorem C55_increasing_counterexample (u : Nat → ℝ) : ∃ rows, drw [1, 3, 2] [1] [1] 0 u = .ok rows := by
  unfold drw drwLoop
  rw [if_neg (by simp), if_neg (by simp)]
  unfold drwLoop
  rw [if_neg (by norm_num)]
  unfold drwLoop
  rw [if_neg (by norm_num)]
  unfold drwLoop
  exact ⟨_, rfl⟩

/-- C55 fails: the second sample is not the decay of the first over the time between them. -/
theorem C55_elapsed_counterexample : ∃ (u : Nat → ℝ) (m1 m2 : ℝ), drw [1, 2] [1] [1] 0 u = .ok [[some m1], [some m2]] ∧
    m2 ≠ decay m1 (2 - 1) 1 1 (u 2) := by
  refine ⟨fun n => if n = 0 then 1 else 0, decay 1 (1 - 0) 1 1 0, decay (decay 1 (1 - 0) 1 1 0) (2 - 0) 1 1 0, ?_, ?_⟩
  · have hs : drwStep (1 - 0) 0 (1, 1) (some (1 * 1)) = some (decay 1 (1 - 0) 1 1 0) := by
      rw [mul_one]; exact step_eq (by norm_num) (by norm_num)
    have hs2 : drwStep (2 - 0) 0 (1, 1) (some (decay 1 (1 - 0) 1 1 0)) = some (decay (decay 1 (1 - 0) 1 1 0) (2 - 0) 1 1 0) :=
      step_eq (by norm_num) (by norm_num)
    unfold drw drwLoop
    rw [if_neg (by simp), if_neg (by simp)]
    unfold drwLoop
    rw [if_neg (by norm_num)]
    unfold drwLoop
    simp only [List.zip_cons_cons, List.zip_nil_right, List.map_cons, List.map_nil, List.zipWith_cons_cons, List.zipWith_nil_left, Nat.zero_add,
      if_true, Nat.add_eq_zero_iff, one_ne_zero, and_false, if_false, hs, hs2]
  · unfold decay
    simp only [mul_zero, add_zero, one_mul, div_one, OfNat.ofNat_ne_zero, if_false]
    intro h
    have e1 : Real.exp (-(1 - 0)) ≠ 0 := (Real.exp_pos _).ne'
    have := mul_left_cancel₀ e1 h
    have := Real.exp_injective this
    norm_num at this

end LCL.DrwProps
