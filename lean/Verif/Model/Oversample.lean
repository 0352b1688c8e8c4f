import Verif.Model.Physical
import Mathlib.Data.Real.Archimedean
import Mathlib.Algebra.Order.Floor.Ring

/-!
# Model of `oversample_opsim` (`src/lightcurvelynx/obstable/opsim.py`, lines 254-353)

Numbers are real.
-/

namespace LCL

/-- An observation found for the pointing (opsim.py:297): its time, filter and sky brightness, and the values of all
other columns, of any type. -/
structure OvObs (O : Type) where
  time : ℝ
  filter : Name
  sky : ℝ
  other : O

/-- A row of the new table. -/
structure OvRow (O : Type) where
  id : Int
  time : ℝ
  ra : ℝ
  dec : ℝ
  filter : Name
  sky : ℝ
  other : O

variable {O : Type}

/-- `np.min` / `np.max` of a non-empty array. -/
noncomputable def timeMin (l : List (OvObs O)) : ℝ := (npMin (l.map (·.time))).getD 0
noncomputable def timeMax (l : List (OvObs O)) : ℝ := (npMax (l.map (·.time))).getD 0

open Classical in
/-- `np.arange(a, b, d)` for `d ≠ 0`. -/
noncomputable def ovArange (a b d : ℝ) : List ℝ := (List.range (⌈(b - a) / d⌉).toNat).map fun (i : Nat) => a + (i : ℝ) * d

/-- `np.tile(bands, k)`. -/
def tile (bands : List Name) : Nat → List Name
  | 0 => []
  | k + 1 => bands ++ tile bands k

open Classical in
/-- `idxmax` and `.loc`: the first observation with the largest sky brightness. -/
noncomputable def darkest : List (OvObs O) → Option (OvObs O)
  | [] => none
  | o :: l => match darkest l with
    | none => some o
    | some m => if m.sky ≤ o.sky then some o else some m

/-- opsim.py:332-347: the observation whose other columns are used in a row of the filter; `pick` are the random
choices, `k` counts the rows of the filter. -/
noncomputable def ovSource (strategy : Name) (pick : Name → Nat → Nat) (obs : List (OvObs O)) (band : Name) (k : Nat) : Except Err (OvObs O) :=
  if strategy = "darkest_sky".toList then
    match darkest (obs.filter fun o => decide (o.filter = band)) with
    | some o => .ok o
    | none => .error .valueError
  else if strategy = "random".toList then
    match (obs.filter fun o => decide (o.filter = band))[pick band k % (obs.filter fun o => decide (o.filter = band)).length]? with
    | some o => .ok o
    | none => .error .valueError
  else .error .valueError

/-- opsim.py:320-347: the rows of the new table, from index `i`, given the filters used so far. -/
noncomputable def ovRows (maxId : Int) (ra dec : ℝ) (strategy : Name) (pick : Name → Nat → Nat) (obs : List (OvObs O)) :
    Nat → List Name → List (ℝ × Name) → Except Err (List (OvRow O))
  | _, _, [] => .ok []
  | i, used, (t, b) :: rest =>
    match ovSource strategy pick obs b (used.count b) with
    | .error e => .error e
    | .ok o => match ovRows maxId ra dec strategy pick obs (i + 1) (used ++ [b]) rest with
      | .error e => .error e
      | .ok rows => .ok (⟨maxId + 1 + i, t, ra, dec, b, o.sky, o.other⟩ :: rows)

/-- opsim.py:309-313: the bands to use. -/
def ovBands (obs : List (OvObs O)) (bands : Option (List Name)) : Except Err (List Name) :=
  match bands with
  | none => .ok (npUnique (obs.map (·.filter)))
  | some bs => if ∀ b ∈ bs, b ∈ obs.map (·.filter) then .ok bs else .error .valueError

/-- opsim.py:315-347, given the bounds and the bands. The strategy is looked at after the table has been made. -/
noncomputable def ovTable (maxId : Int) (ra dec : ℝ) (obs : List (OvObs O)) (deltaT tmin tmax : ℝ) (bands : List Name)
    (strategy : Name) (pick : Name → Nat → Nat) : Except Err (List (OvRow O)) :=
  if (ovArange tmin tmax deltaT).length < bands.length then .error .valueError
  else if bands.length = 0 then .error .zeroDivision
  else if (tile bands ((ovArange tmin tmax deltaT).length / bands.length)).length ≠ (ovArange tmin tmax deltaT).length then .error .valueError
  else if strategy ≠ "darkest_sky".toList ∧ strategy ≠ "random".toList then .error .valueError
  else ovRows maxId ra dec strategy pick obs 0 [] ((ovArange tmin tmax deltaT).zip (tile bands ((ovArange tmin tmax deltaT).length / bands.length)))

open Classical in
/-- opsim.py:254-353 `oversample_opsim`, from the observations found for the pointing on; `maxId` is the largest
observation id of the survey. The result is the table handed to the constructor of `OpSim`. -/
noncomputable def oversample (maxId : Int) (ra dec : ℝ) (obs : List (OvObs O)) (deltaT : ℝ) (tmin tmax : Option ℝ) (bands : Option (List Name))
    (strategy : Name) (pick : Name → Nat → Nat) : Except Err (List (OvRow O)) :=
  if obs.length = 0 then .error .valueError
  else if tmin.getD (timeMin obs) ≥ tmax.getD (timeMax obs) then .error .valueError
  else match ovBands obs bands with
    | .error e => .error e
    | .ok bs =>
      if deltaT = 0 then .error .zeroDivision
      else ovTable maxId ra dec obs deltaT (tmin.getD (timeMin obs)) (tmax.getD (timeMax obs)) bs strategy pick

end LCL
