import Verif.Model.Photometry

/-!
# Model of `src/lightcurvelynx/utils/post_process_results.py`

A `NestedFrame` is a table with row labels and columns, whose nested column `lightcurve` is stored as nested-pandas
does: flat columns of all entries together with the number of entries of each row. Masked, None and NaN entries are
`missing`.
-/

namespace LCL
open Real

/-- A cell of a result table. -/
inductive PCell
  | num (x : ℝ)
  | flag (b : Bool)
  | text (s : Name)
  | missing

/-- The nested column: entries per row, and the flat columns. -/
structure NestCol where
  counts : List Nat
  flat : Dict Name (List PCell)

/-- A result table. -/
structure NFrame where
  labels : List Int
  cols : Dict Name (List PCell)
  lc : Option NestCol

/-- A cell in arithmetic. -/
def PCell.val : PCell → Except Err (Option ℝ)
  | .num x => .ok (some x)
  | .missing => .ok none
  | _ => .error .typeError

/-- A cell holding a number or nothing. -/
def PCell.ofOpt : Option ℝ → PCell
  | some x => .num x
  | none => .missing

/-- A column in arithmetic. -/
def pnums (cols : Dict Name (List PCell)) (name : Name) : Except Err (List (Option ℝ)) :=
  match cols.get? name with
  | none => .error .keyError
  | some c => c.mapM PCell.val

open Classical in
/-- post_process_results.py:27-48 `lightcurve_compute_snr`, one entry (comparisons with NaN are false). -/
noncomputable def snrOf : Option ℝ → Option ℝ → Option ℝ
  | some f, some e => if 0 < f ∧ 0 < e then some (f / e) else none
  | _, _ => none

open Classical in
/-- post_process_results.py:51-76 `lightcurve_compute_mag`, one entry of the magnitude. -/
noncomputable def magOf : Option ℝ → Option ℝ → Option ℝ
  | some f, some e => if 0 < f ∧ 0 < e then flux2mag f else none
  | _, _ => none

open Classical in
/-- post_process_results.py:51-76 `lightcurve_compute_mag`, one entry of the magnitude error. -/
noncomputable def magErrOf : Option ℝ → Option ℝ → Option ℝ
  | some f, some e => if 0 < f ∧ 0 < e then some (2.5 / log 10 * (e / f)) else none
  | _, _ => none

open Classical in
/-- post_process_results.py:147: iterating over a masked array gives the constant `masked` for a masked entry; it is
not None, and comparing it gives `masked` again. -/
noncomputable def detectCell (minSnr : ℝ) : Option ℝ → PCell
  | some x => .flag (decide (minSnr ≤ x))
  | none => .missing

open Classical in
/-- post_process_results.py:105. -/
noncomputable def detectSingle (minSnr : ℝ) : Option ℝ → PCell
  | some x => .flag (decide (minSnr ≤ x))
  | none => .flag false

/-- The difference of a column and a number. -/
def subOpt (t0 : ℝ) : Option ℝ → Option ℝ
  | some x => some (x - t0)
  | none => none

/-- post_process_results.py:103-109 and 145-152: the four new columns. -/
noncomputable def addColumns (detect : Option ℝ → PCell) (flux err : List (Option ℝ)) (d : Dict Name (List PCell)) :
    Dict Name (List PCell) :=
  (((d.set "snr".toList ((List.zipWith snrOf flux err).map PCell.ofOpt)).set "detection".toList
    ((List.zipWith snrOf flux err).map detect)).set "mag".toList ((List.zipWith magOf flux err).map PCell.ofOpt)).set
    "magerr".toList ((List.zipWith magErrOf flux err).map PCell.ofOpt)

/-- post_process_results.py:111-112. -/
def addTimeRel (t0 : Option ℝ) (d : Dict Name (List PCell)) : Except Err (Dict Name (List PCell)) :=
  match t0 with
  | none => .ok d
  | some x => if d.has "mjd".toList then
      match pnums d "mjd".toList with
      | .error e => .error e
      | .ok l => .ok (d.set "time_rel".toList ((l.map (subOpt x)).map PCell.ofOpt))
    else .ok d

/-- post_process_results.py:79-112 `augment_single_lightcurve`. -/
noncomputable def augmentSingle (d : Dict Name (List PCell)) (minSnr : ℝ) (t0 : Option ℝ) : Except Err (Dict Name (List PCell)) :=
  if d.has "flux".toList && d.has "fluxerr".toList then
    match pnums d "flux".toList with
    | .error e => .error e
    | .ok flux => match pnums d "fluxerr".toList with
      | .error e => .error e
      | .ok err => addTimeRel t0 (addColumns (detectSingle minSnr) flux err d)
  else .error .valueError

/-- The index of a flattened nested column: the label of the row of each entry. -/
def flatLabels (labels : List Int) (counts : List Nat) : List Int :=
  (List.zipWith (fun l n => List.replicate n l) labels counts).flatten

open Classical in
/-- post_process_results.py:155: the column t0 has no zero entry and no missing one (`none` means that no relative
time is computed). -/
noncomputable def usableT0 : List (Option ℝ) → Option (List ℝ)
  | [] => some []
  | none :: _ => none
  | some x :: rest => if x = 0 then none else match usableT0 rest with
    | none => none
    | some l => some (x :: l)

/-- `t0[t0_idx]`: numpy indexing by position. -/
def takeAt (t0 : List ℝ) (idx : List Int) : Except Err (List ℝ) :=
  match idx.mapM (fun i => (ObsTable.normIndex t0.length i).bind fun k => t0[k]?) with
  | none => .error .indexError
  | some l => .ok l

/-- post_process_results.py:156-163. -/
def nestedTimeRel (labels : List Int) (counts : List Nat) (t0 : List ℝ) (flat : Dict Name (List PCell)) :
    Except Err (Dict Name (List PCell)) :=
  if flat.has "mjd".toList then
    match pnums flat "mjd".toList with
    | .error e => .error e
    | .ok mjd => match takeAt t0 (flatLabels labels counts) with
      | .error e => .error e
      | .ok own => .ok (flat.set "time_rel".toList ((List.zipWith (fun t m => subOpt t m) own mjd).map PCell.ofOpt))
  else .error .valueError

/-- post_process_results.py:155: the relative times, if there is a usable t0 column. -/
noncomputable def nestedT0 (cols : Dict Name (List PCell)) (labels : List Int) (counts : List Nat) (flat : Dict Name (List PCell)) :
    Except Err (Dict Name (List PCell)) :=
  if cols.has "t0".toList then
    match pnums cols "t0".toList with
    | .error e => .error e
    | .ok t0 => match usableT0 t0 with
      | none => .ok flat
      | some l => nestedTimeRel labels counts l flat
  else .ok flat

/-- post_process_results.py:115-163 `results_augment_lightcurves`; the result is the modified table. -/
noncomputable def augmentNested (r : NFrame) (minSnr : ℝ) : Except Err NFrame :=
  match r.lc with
  | none => .error .valueError
  | some lc =>
    if lc.flat.has "flux".toList && lc.flat.has "fluxerr".toList then
      match pnums lc.flat "flux".toList with
      | .error e => .error e
      | .ok flux => match pnums lc.flat "fluxerr".toList with
        | .error e => .error e
        | .ok err => match nestedT0 r.cols r.labels lc.counts (addColumns (detectCell minSnr) flux err lc.flat) with
          | .error e => .error e
          | .ok flat => .ok { r with lc := some ⟨lc.counts, flat⟩ }
    else .error .valueError

/-- Keep the elements where the mask holds. -/
def keepIf {β : Type} : List Bool → List β → List β
  | true :: m, x :: l => x :: keepIf m l
  | false :: m, _ :: l => keepIf m l
  | _, _ => []

/-- A mask on the flat entries: each row's flag repeated for its entries. -/
def flatMask (m : List Bool) (counts : List Nat) : List Bool :=
  (List.zipWith (fun b n => List.replicate n b) m counts).flatten

/-- Selection of rows of a result table. -/
def NFrame.select (r : NFrame) (m : List Bool) : NFrame :=
  { labels := keepIf m r.labels
    cols := r.cols.map fun q => (q.1, keepIf m q.2)
    lc := r.lc.map fun c => ⟨keepIf m c.counts, c.flat.map fun q => (q.1, keepIf (flatMask m c.counts) q.2)⟩ }

/-- post_process_results.py:11-24 `results_drop_empty`: rows without a lightcurve (no entries) are dropped. -/
def dropEmpty (r : NFrame) : Except Err NFrame :=
  match r.lc with
  | none => .error .keyError
  | some c => .ok (r.select (c.counts.map fun n => decide (0 < n)))

end LCL
