import Verif.Model.NoiseFree

/-!
# Specification vocabulary for the noise-free lightcurves (C54)
-/

namespace LCL.NFSpec
open LCL

/-- `l` is the grid from `lo` (included) to `hi` (excluded) with the given step. -/
def IsGrid (lo hi step : ℝ) (l : List ℝ) : Prop :=
  (∀ (i : Nat) (x : ℝ), l[i]? = some x → x = lo + i * step) ∧
  (0 < step → ∀ i : Nat, i < l.length ↔ lo + i * step < hi) ∧
  (step < 0 → ∀ i : Nat, i < l.length ↔ hi < lo + i * step)

open Classical in
/-- The observer-frame time of a rest-frame phase: stretched by 1 + z if z is positive, then shifted by t0. -/
noncomputable def obsTime (s : NFState) (p : ℝ) : ℝ :=
  (match s.z with
   | some z => if 0 < z then p * (1 + z) else p
   | none => p) + s.t0.getD 0

/-- The value of a phase argument for sample `k`. -/
def phaseAt : PhaseArg → Nat → Option ℝ
  | .scalar x, _ => some x
  | .arr l, k => l[k]?

/-- The model returns one flux per requested time. -/
def OnePerTime (eval : List ℝ → List Name → SState ℝ → Except Err (List ℝ)) : Prop :=
  ∀ ts fs st out, eval ts fs st = .ok out → out.length = ts.length

/-- The lightcurve of sample `k` is the one of the property: on the grid of its own phases, at the observer-frame
times, every filter's column being the model evaluated in that filter at these times. -/
def IsLightcurve (eval : List ℝ → List Name → SState ℝ → Except Err (List ℝ)) (filters : List Name) (ph : Phases)
    (k : Nat) (s : NFState) (column : Name → List NCell) : Prop :=
  ∃ lo hi step phases, phaseAt ph.lo k = some lo ∧ phaseAt ph.hi k = some hi ∧ phaseAt ph.step k = some step ∧
    IsGrid lo hi step phases ∧ column "rest_phase".toList = phases.map .num ∧
    column "times".toList = phases.map (fun p => .num (obsTime s p)) ∧
    ∀ f ∈ filters, ∃ fl : List ℝ, eval (phases.map (obsTime s)) (List.replicate phases.length f) s.state = .ok fl ∧
      column f = fl.map .num

end LCL.NFSpec
