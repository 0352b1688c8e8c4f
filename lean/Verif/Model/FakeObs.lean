import Verif.Model.Photometry

/-!
# Model of `FakeObsTable` (`src/lightcurvelynx/obstable/fake_obs_table.py`)
-/

namespace LCL
open Real ObsTable

open Classical in
/-- fake_obs_table.py:157-160: the loop over `zp_per_band`; `rows` is the filter column. -/
noncomputable def fillZp (rows : List Name) : List (Name × ℝ) → List ℝ → Except Err (List ℝ)
  | [], out => .ok out
  | (key, val) :: rest, out =>
    if val ≤ 0 then .error .valueError
    else fillZp rows rest (List.zipWith (fun r y => if r = key then val else y) rows out)

/-- fake_obs_table.py:136-161 `_assign_zero_points`. -/
noncomputable def fakeAssignZp (zpPerBand : Option (Dict Name ℝ)) (t : ObsTable) : Except Err ObsTable :=
  if t.cols.has "zp".toList then .ok t
  else match zpPerBand with
    | none => .error .valueError
    | some d => match t.cols.get? "filter".toList with
      | none => .error .valueError
      | some c => match c.mapM Cell.str? with
        | .error e => .error e
        | .ok rows =>
          if t.filters.all fun f => d.has f then
            match fillZp rows d (List.replicate t.len 0) with
            | .error e => .error e
            | .ok out => t.addColumn "zp".toList (.column (out.map .num)) true
          else .error .valueError

/-- The argument `const_flux_error`. -/
inductive ConstErr
  | none
  | num (x : ℝ)
  | perFilter (d : Dict Name ℝ)

/-- A `FakeObsTable`: the table and the attribute `const_flux_error`. -/
structure FakeTable where
  table : ObsTable
  constErr : Option (Dict Name ℝ)

open Classical in
/-- fake_obs_table.py:109-120: the checks of a constant flux error. -/
noncomputable def checkConst (filters : List Name) (d : Dict Name ℝ) : Except Err (Dict Name ℝ) :=
  if filters.all fun f => d.has f then
    if d.all fun q => decide (0 ≤ q.2) then .ok d else .error .valueError
  else .error .valueError

/-- `_assign_constant_if_needed` where the value is required: ValueError if it is missing. -/
noncomputable def requireColumn (name : Name) (cp : Bool) (t : ObsTable) : Except Err ObsTable :=
  match t.assignConstant name cp with
  | .error e => .error e
  | .ok (t, true) => .ok t
  | .ok (_, false) => .error .valueError

/-- fake_obs_table.py:128-132: the PSF footprint, from its column or constant, else from `fwhm_px`. -/
noncomputable def requirePsf (t : ObsTable) : Except Err ObsTable :=
  match t.assignConstant "psf_footprint".toList true with
  | .error e => .error e
  | .ok (t, true) => .ok t
  | .ok (t, false) => match requireColumn "fwhm_px".toList true t with
    | .error e => .error e
    | .ok t => match numCol t.cols "fwhm_px".toList with
      | .error e => .error e
      | .ok l => t.addColumn "psf_footprint".toList (.column (l.map fun x => .num (gaussEffArea * x ^ 2)))

/-- fake_obs_table.py:121-134: the required columns. -/
noncomputable def requireAll (t : ObsTable) : Except Err ObsTable :=
  match requireColumn "exptime".toList true t with
  | .error e => .error e
  | .ok t => match requireColumn "nexposure".toList true t with
    | .error e => .error e
    | .ok t => match requirePsf t with
      | .error e => .error e
      | .ok t => requireColumn "sky".toList false t

/-- fake_obs_table.py:72-134 `__init__`; `survey` holds the survey values, including the keyword arguments. -/
noncomputable def fakeInit (cols : Dict Name (List Cell)) (labels : List Int) (colmap : Dict Name Name)
    (survey : Dict Name SVal) (fp : Option (ℝ → ℝ → ℝ → ℝ → Option ℝ → Bool)) (zpPerBand : Option (Dict Name ℝ))
    (constErr : ConstErr) : Except Err FakeTable :=
  match ObsTable.init baseRequired (fakeAssignZp zpPerBand) cols labels colmap survey fp with
  | .error e => .error e
  | .ok t => match constErr with
    | .num x => match checkConst t.filters (t.filters.map fun f => (f, x)) with
      | .error e => .error e
      | .ok d => .ok ⟨t, some d⟩
    | .perFilter d => match checkConst t.filters d with
      | .error e => .error e
      | .ok d => .ok ⟨t, some d⟩
    | .none => match requireAll t with
      | .error e => .error e
      | .ok t => .ok ⟨t, none⟩

/-- fake_obs_table.py:181-183: the constant errors of the requested rows. -/
def constErrors (t : ObsTable) (d : Dict Name ℝ) (index : List Nat) : Except Err (List (Option ℝ)) :=
  match t.cols.get? "filter".toList with
  | none => .error .keyError
  | some c => match index.mapM (fun i => c[i]?) with
    | none => .error .indexError
    | some cells => match cells.mapM Cell.str? with
      | .error e => .error e
      | .ok fs => match fs.mapM (fun f => d.get? f) with
        | none => .error .keyError
        | some l => .ok (l.map some)

/-- fake_obs_table.py:164-199 `bandflux_error_point_source`. -/
noncomputable def fakeError (f : FakeTable) (flux : List ℝ) (index : List Nat) : Except Err (List (Option ℝ)) :=
  match f.constErr with
  | some d => constErrors f.table d index
  | none => match pickRows f.table "psf_footprint".toList index with
    | .error e => .error e
    | .ok psf => match pickRows f.table "exptime".toList index with
      | .error e => .error e
      | .ok exptime => match pickRows f.table "nexposure".toList index with
        | .error e => .error e
        | .ok nexp => match pickRows f.table "sky".toList index with
          | .error e => .error e
          | .ok sky => match pickRows f.table "zp".toList index with
            | .error e => .error e
            | .ok zp => match surveyNum f.table "read_noise".toList with
              | .error e => .error e
              | .ok ro => match surveyNum f.table "dark_current".toList with
                | .error e => .error e
                | .ok dark => rowErrors flux (zip5 (fun a b c d e =>
                    { exptime := a, count := b, psf := c, sky := d, zp := e, readout := .num ro, dark := dark })
                    exptime nexp psf sky zp)

end LCL
