import Verif.Model.Lclib
import Verif.Model.TemplateSed

/-!
# Model of LCLIB tables as lightcurve templates (`src/lightcurvelynx/models/lightcurve_template_model.py`,
lines 203-304) and of `MultiLightcurveTemplateModel` (lines 730-931)
-/

namespace LCL

/-- lightcurve_template_model.py:243: which rows are observations of the transient; all of them without a type
column. -/
def lclibMask (t : LcTable ℝ) (n : Nat) : List Bool :=
  match t.types with
  | none => List.replicate n true
  | some ts => ts.map fun x => decide (x = "S".toList)

/-- lightcurve_template_model.py:230-235: the filters to use (a set in the code: the order is not specified). -/
def lclibFilters (t : LcTable ℝ) (filters : Option (List Name)) : List Name :=
  let cols := t.cols.keys.filter fun c => decide (c ≠ "time".toList)
  match filters with
  | none => cols
  | some fs => cols.filter fun c => decide (c ∈ fs)

/-- lightcurve_template_model.py:241-251: zero, or the first row that is not an observation. -/
noncomputable def lclibBaseline (t : LcTable ℝ) (mask : List Bool) (filters : List Name) : Dict Name ℝ :=
  match mask.findIdx? (fun b => !b) with
  | none => filters.map fun f => (f, 0)
  | some k => filters.map fun f => (f, mag2flux (((t.cols.get? f).getD []).getD k 0))

/-- lightcurve_template_model.py:258-262: the curve of one filter. -/
noncomputable def lclibCurve (t : LcTable ℝ) (mask : List Bool) (times : List ℝ) (f : Name) : List (ℝ × ℝ) :=
  (gather mask times).zip ((gather mask ((t.cols.get? f).getD [])).map mag2flux)

/-- lightcurve_template_model.py:265-285: whether the curve is periodic. -/
def lclibPeriodic (t : LcTable ℝ) : Except Err Bool :=
  match t.info.get? "RECUR_CLASS".toList with
  | none => .ok false
  | some (.params _) => .error .valueError
  | some (.str s) =>
    if s = "PERIODIC".toList ∨ s = "RECUR-PERIODIC".toList then .ok true
    else if s = "RECUR-NONPERIODIC".toList then .ok false
    else if s = "NON-RECUR".toList then .ok false
    else if s = [] then .ok false
    else .error .valueError

/-- lightcurve_template_model.py:289-291: whether every curve ends at its starting value. -/
noncomputable def lclibAllMatch : List (List (ℝ × ℝ)) → Except Err Bool
  | [] => .ok true
  | lc :: rest => match lc.head?, lc.getLast? with
    | some a, some b => match lclibAllMatch rest with
      | .error e => .error e
      | .ok m => .ok (decide (isClose a.2 b.2) && m)
    | _, _ => .error .indexError

/-- lightcurve_template_model.py:296-298: the time of the closing row. -/
noncomputable def lclibNewEnd (times : List ℝ) : ℝ :=
  times.getLastD 0 + (times.getLastD 0 - times.headD 0) / (times.length - 1)

/-- lightcurve_template_model.py:301: append the closing row. -/
noncomputable def lclibClose (newEnd : ℝ) (lc : List (ℝ × ℝ)) : List (ℝ × ℝ) := lc ++ [(newEnd, (lc.headD (0, 0)).2)]

/-- lightcurve_template_model.py:287-302. -/
noncomputable def lclibWrap (periodic : Bool) (times : List ℝ) (curves : Dict Name (List (ℝ × ℝ))) : Except Err (Dict Name (List (ℝ × ℝ))) :=
  if periodic then match lclibAllMatch curves.values with
    | .error e => .error e
    | .ok true => .ok curves
    | .ok false => .ok (curves.map fun p => (p.1, lclibClose (lclibNewEnd times) p.2))
  else .ok curves

/-- lightcurve_template_model.py:255: the reference epoch. -/
noncomputable def lclibT0 (times : List ℝ) (forced : Option ℝ) : Except Err ℝ :=
  match forced with
  | some x => .ok x
  | none => match npMin times with
    | none => .error .valueError
    | some x => .ok x

/-- lightcurve_template_model.py:203-304 `LightcurveData.from_lclib_table`. -/
noncomputable def fromLclib (t : LcTable ℝ) (forced : Option ℝ) (filters : Option (List Name)) : Except Err LcData :=
  match t.cols.get? "time".toList with
  | none => .error .valueError
  | some times =>
    if lclibFilters t filters = [] then .error .valueError
    else match lclibT0 (gather (lclibMask t times.length) times) forced with
      | .error e => .error e
      | .ok t0 => match lclibPeriodic t with
        | .error e => .error e
        | .ok periodic =>
          match lclibWrap periodic (gather (lclibMask t times.length) times)
            ((lclibFilters t filters).map fun f => (f, lclibCurve t (lclibMask t times.length) times f)) with
          | .error e => .error e
          | .ok curves => lcInit (.dict (curves.map fun p => (p.1, ⟨2, p.2⟩))) t0 periodic false
              (if periodic then none else some (lclibBaseline t (lclibMask t times.length) (lclibFilters t filters)))

/-! ## Several templates -/

/-- lightcurve_template_model.py:730-811: the curves, the wavelengths and the basis spectra for the union of the
filters. -/
structure MultiTemplate where
  data : List LcData
  allWaves : List ℝ
  basis : Dict Name (List ℝ)

/-- lightcurve_template_model.py:791-798: the union of the filters (a set in the code: the order is not specified). -/
def multiFilters (data : List LcData) : List Name := (data.flatMap fun d => d.curves.keys).dedup

/-- lightcurve_template_model.py:782-811 `__init__`, up to the parameters it adds. -/
noncomputable def multiInit (data : List LcData) (g : PassbandGroup ℝ) (t0Given : Bool) : Except Err MultiTemplate :=
  match templateBase g (multiFilters data) t0Given with
  | .error e => .error e
  | .ok basis => .ok ⟨data, g.waves, basis⟩

/-- `self.lightcurves[k]`: an index from the end when negative. -/
def pyIndex {α : Type} (l : List α) (k : Int) : Except Err α :=
  match l[(if k < 0 then k + l.length else k).toNat]? with
  | some x => if k < -(l.length : Int) then .error .indexError else .ok x
  | none => .error .indexError

/-- lightcurve_template_model.py:809: the values `baseline_f` is selected from. -/
noncomputable def multiBaselines (m : MultiTemplate) (f : Name) : List ℝ := m.data.map fun d => (d.baseline.get? f).getD 0

/-- lightcurve_template_model.py:895-931 `compute_bandflux`. -/
noncomputable def multiBandflux (m : MultiTemplate) (selected : Int) (t0 : ℝ) (times : List ℝ) (filters : List Name) : Except Err (List ℝ) :=
  match pyIndex m.data selected with
  | .error e => .error e
  | .ok d => templateBandflux d t0 times filters

/-- lightcurve_template_model.py:867-893 `compute_sed`. -/
noncomputable def multiSed (m : MultiTemplate) (selected : Int) (t0 : ℝ) (times wavelengths : List ℝ) : Except Err (List (List ℝ)) :=
  match pyIndex m.data selected with
  | .error e => .error e
  | .ok d => templateSed ⟨d, m.allWaves, m.basis⟩ t0 times wavelengths

/-- lightcurve_template_model.py:850-858: the reference epoch of each table; one number stands for all. -/
def multiT0s (n : Nat) : Option (ℝ ⊕ List ℝ) → Except Err (List (Option ℝ))
  | none => .ok (List.replicate n none)
  | some (.inl x) => .ok (List.replicate n (some x))
  | some (.inr l) => if l.length = n then .ok (l.map some) else .error .valueError

/-- lightcurve_template_model.py:860-863. -/
noncomputable def multiRead (filters : Option (List Name)) : List (LcTable ℝ) → List (Option ℝ) → Except Err (List LcData)
  | t :: ts, x :: xs => match fromLclib t x filters with
    | .error e => .error e
    | .ok d => match multiRead filters ts xs with
      | .error e => .error e
      | .ok ds => .ok (d :: ds)
  | _, _ => .ok []

/-- lightcurve_template_model.py:817-865 `from_lclib_file`, on the tables of the file. -/
noncomputable def multiFromTables (tables : List (LcTable ℝ)) (g : PassbandGroup ℝ) (forced : Option (ℝ ⊕ List ℝ)) (filters : Option (List Name))
    (t0Given : Bool) : Except Err MultiTemplate :=
  if tables = [] then .error .valueError
  else match multiT0s tables.length forced with
    | .error e => .error e
    | .ok xs => match multiRead filters tables xs with
      | .error e => .error e
      | .ok ds => multiInit ds g t0Given

end LCL
