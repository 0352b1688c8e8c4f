import Verif.Base.Py
import Mathlib.Analysis.SpecialFunctions.Exp
import Mathlib.Analysis.SpecialFunctions.Sqrt

/-!
# Model of `sample_damped_random_walk` (`src/lightcurvelynx/models/agn.py`, lines 20-66)

Numbers are real; NaN is `none`. The generator is the sequence `u` of the numbers that `rng.random()` returns.
-/

namespace LCL

open Classical in
/-- agn.py:63 for one wavelength: `dt` is the time step, `u` the random number. A zero time scale is not modelled (NaN). -/
noncomputable def drwStep (dt u : ℝ) (p : ℝ × ℝ) (m : Option ℝ) : Option ℝ :=
  match m with
  | none => none
  | some m =>
    if p.1 = 0 then none
    else if 0 ≤ 1 - Real.exp (-2 * dt / p.1) then some (m * Real.exp (-dt / p.1) + p.2 * Real.sqrt (1 - Real.exp (-2 * dt / p.1)) * u)
    else none

open Classical in
/-- agn.py:58-64: the loop over the times, from index `i`. `curr_t` is not changed in the loop. -/
noncomputable def drwLoop (currT : ℝ) (ps : List (ℝ × ℝ)) (u : Nat → ℝ) (i : Nat) (m : List (Option ℝ)) :
    List ℝ → Except Err (List (List (Option ℝ)))
  | [] => .ok []
  | t :: ts =>
    if t ≤ currT ∧ i ≠ 0 then .error .valueError
    else match drwLoop currT ps u (i + 1) (List.zipWith (drwStep (t - currT) (u (i + 1))) ps m) ts with
      | .error e => .error e
      | .ok rest => .ok (List.zipWith (drwStep (t - currT) (u (i + 1))) ps m :: rest)

/-- agn.py:20-66 `sample_damped_random_walk`: one row for each time, one entry for each wavelength. -/
noncomputable def drw (times tau sf : List ℝ) (t0 : ℝ) (u : Nat → ℝ) : Except Err (List (List (Option ℝ))) :=
  if sf.length ≠ tau.length then .error .valueError
  else drwLoop t0 (tau.zip sf) u 0 (sf.map fun s => some (u 0 * s)) times

end LCL
