import Verif.Model.Passband
import Verif.Model.Periodic
import Verif.Model.Photometry
import Verif.Model.Physical

/-!
# Model of `LightcurveData` (`src/lightcurvelynx/models/lightcurve_template_model.py`, lines 26-345)

Numbers are real. Arrays are floating point arrays.
-/

namespace LCL

/-- The array of one filter: its number of columns and the first two of them (an array that is not two-dimensional is
represented by an impossible number of columns). -/
structure LcInput where
  cols : Nat
  rows : List (ℝ × ℝ)

/-- lightcurve_template_model.py:95-113: the kinds of input. -/
inductive LcSource
  | dict (d : Dict Name LcInput)
  | array (cols : Nat) (rows : List (ℝ × ℝ × Name))
  | other

/-- The attributes of a `LightcurveData`. -/
structure LcData where
  curves : Dict Name (List (ℝ × ℝ))
  t0 : ℝ
  period : Option ℝ
  minTimes : Dict Name ℝ
  maxTimes : Dict Name ℝ
  baseline : Dict Name ℝ

/-- lightcurve_template_model.py:105-109: the rows of one filter. -/
def lcRowsOf (rows : List (ℝ × ℝ × Name)) (f : Name) : List (ℝ × ℝ) :=
  (rows.filter fun r => decide (r.2.2 = f)).map fun r => (r.1, r.2.1)

/-- lightcurve_template_model.py:95-113. -/
def lcSplit : LcSource → Except Err (Dict Name LcInput)
  | .dict d => .ok d
  | .array cols rows =>
    if cols ≠ 3 then .error .valueError
    else .ok ((npUnique (rows.map (·.2.2))).map fun f => (f, ⟨2, lcRowsOf rows f⟩))
  | .other => .error .typeError

/-- lightcurve_template_model.py:126-130: the row, shifted and converted. -/
noncomputable def lcShiftRow (t0 : ℝ) (mags : Bool) (r : ℝ × ℝ) : ℝ × ℝ := (r.1 - t0, if mags then mag2flux r.2 else r.2)

/-- lightcurve_template_model.py:118-130: validation, shift and conversion of one curve. -/
noncomputable def lcShiftOne (t0 : ℝ) (mags : Bool) (lc : LcInput) : Except Err (List (ℝ × ℝ)) :=
  if lc.cols ≠ 2 ∧ lc.cols ≠ 3 then .error .valueError
  else if ¬ ∀ d ∈ npDiff (lc.rows.map (·.1)), 0 < d then .error .valueError
  else .ok (lc.rows.map (lcShiftRow t0 mags))

/-- lightcurve_template_model.py:117-130: the loop. -/
noncomputable def lcShiftAll (t0 : ℝ) (mags : Bool) : Dict Name LcInput → Except Err (Dict Name (List (ℝ × ℝ)))
  | [] => .ok []
  | (f, lc) :: rest => match lcShiftOne t0 mags lc with
    | .error e => .error e
    | .ok c => match lcShiftAll t0 mags rest with
      | .error e => .error e
      | .ok d => .ok ((f, c) :: d)

open Classical in
/-- `np.allclose(a, b)` of two arrays: an array of one number is compared to each of the other's. -/
noncomputable def allCloseArr (a b : List ℝ) : Except Err Bool :=
  if a.length = b.length then .ok (decide (∀ p ∈ List.zip a b, isClose p.1 p.2))
  else if a.length = 1 then .ok (decide (∀ x ∈ a, ∀ y ∈ b, isClose x y))
  else if b.length = 1 then .ok (decide (∀ x ∈ a, ∀ y ∈ b, isClose x y))
  else .error .valueError

open Classical in
/-- lightcurve_template_model.py:180-183: the tests on one curve. -/
noncomputable def lcCheckOne (first lc : List (ℝ × ℝ)) : Except Err Unit :=
  match allCloseArr (lc.map (·.1)) (first.map (·.1)) with
  | .error e => .error e
  | .ok false => .error .valueError
  | .ok true => match lc.head?, lc.getLast? with
    | some a, some b => if isClose a.2 b.2 then .ok () else .error .valueError
    | _, _ => .error .indexError

noncomputable def lcCheckAll (first : List (ℝ × ℝ)) : List (List (ℝ × ℝ)) → Except Err Unit
  | [] => .ok ()
  | lc :: rest => match lcCheckOne first lc with
    | .error e => .error e
    | .ok _ => lcCheckAll first rest

/-- lightcurve_template_model.py:200-201. -/
def lcMove (s : ℝ) (curves : Dict Name (List (ℝ × ℝ))) : Dict Name (List (ℝ × ℝ)) :=
  curves.map fun p => (p.1, p.2.map fun r => (r.1 - s, r.2))

open Classical in
/-- lightcurve_template_model.py:164-201 `_validate_periodicity`: the curves, the reference epoch and the period. -/
noncomputable def lcPeriodic (curves : Dict Name (List (ℝ × ℝ))) (t0 : ℝ) : Except Err (Dict Name (List (ℝ × ℝ)) × ℝ × ℝ) :=
  match curves with
  | [] => .error .valueError
  | (_, first) :: _ =>
    if first.length < 2 then .error .valueError
    else match lcCheckAll first curves.values with
      | .error e => .error e
      | .ok _ => match first.head?, first.getLast? with
        | some a, some b =>
          if b.1 - a.1 ≤ 0 then .error .valueError
          else if isClose a.1 0 then .ok (curves, t0, b.1 - a.1)
          else if t0 ≠ 0 then .error .valueError
          else .ok (lcMove a.1 curves, a.1, b.1 - a.1)
        | _, _ => .error .indexError

/-- lightcurve_template_model.py:136-137: the time of the first or the last row of every curve. -/
def lcEnds (pick : List (ℝ × ℝ) → Option (ℝ × ℝ)) : Dict Name (List (ℝ × ℝ)) → Except Err (Dict Name ℝ)
  | [] => .ok []
  | (f, lc) :: rest => match pick lc with
    | none => .error .indexError
    | some r => match lcEnds pick rest with
      | .error e => .error e
      | .ok d => .ok ((f, r.1) :: d)

/-- lightcurve_template_model.py:142-148: the baselines before conversion. -/
def lcBaseline (curves : Dict Name (List (ℝ × ℝ))) (baseline : Option (Dict Name ℝ)) : Except Err (Dict Name ℝ) :=
  match baseline with
  | none => .ok (curves.map fun p => (p.1, 0))
  | some b => if ∀ f ∈ curves.keys, b.has f = true then .ok b else .error .valueError

/-- lightcurve_template_model.py:151-153. -/
noncomputable def lcConvert (mags : Bool) (b : Dict Name ℝ) : Dict Name ℝ :=
  if mags then b.map fun p => (p.1, mag2flux p.2) else b

/-- lightcurve_template_model.py:132-153, after the curves have been shifted and the periodicity checked. -/
noncomputable def lcFinish (curves : Dict Name (List (ℝ × ℝ))) (t0 : ℝ) (period : Option ℝ) (mags : Bool) (baseline : Option (Dict Name ℝ)) :
    Except Err LcData :=
  match lcEnds List.head? curves with
  | .error e => .error e
  | .ok lo => match lcEnds List.getLast? curves with
    | .error e => .error e
    | .ok hi => match lcBaseline curves baseline with
      | .error e => .error e
      | .ok b => .ok ⟨curves, t0, period, lo, hi, lcConvert mags b⟩

/-- lightcurve_template_model.py:83-153 `LightcurveData.__init__`. -/
noncomputable def lcInit (source : LcSource) (t0 : ℝ) (periodic mags : Bool) (baseline : Option (Dict Name ℝ)) : Except Err LcData :=
  match lcSplit source with
  | .error e => .error e
  | .ok d => match lcShiftAll t0 mags d with
    | .error e => .error e
    | .ok curves =>
      if periodic then match lcPeriodic curves t0 with
        | .error e => .error e
        | .ok r => lcFinish r.1 r.2.1 (some r.2.2) mags baseline
      else lcFinish curves t0 none mags baseline

/-- lightcurve_template_model.py:148-153: the dictionary of baselines the caller gave, after the call: it is stored as it is and
converted in place. -/
noncomputable def lcCallerBaseline (mags : Bool) (baseline : Dict Name ℝ) : Dict Name ℝ := lcConvert mags baseline

open Classical in
/-- lightcurve_template_model.py:332-343: the value at one time. -/
noncomputable def lcValue (lc : List (ℝ × ℝ)) (lo hi base t : ℝ) : ℝ :=
  if lo ≤ t ∧ t ≤ hi then npInterp (lc.map (·.1)) (lc.map (·.2)) 0 0 t else base

/-- lightcurve_template_model.py:328-330. -/
noncomputable def lcWrap (period : Option ℝ) (t : ℝ) : ℝ :=
  match period with
  | none => t
  | some p => pyMod t p

/-- lightcurve_template_model.py:306-345 `evaluate_sed`. -/
noncomputable def lcEval (d : LcData) (times : List ℝ) (f : Name) : Except Err (List ℝ) :=
  match d.curves.get? f, d.minTimes.get? f, d.maxTimes.get? f with
  | none, _, _ => .error .valueError
  | some lc, some lo, some hi => .ok (times.map fun t => lcValue lc lo hi ((d.baseline.get? f).getD 0) (lcWrap d.period t))
  | _, _, _ => .error .keyError

end LCL
