import Verif.Model.Persist
import Verif.Model.Photometry

/-!
# Model of `RomanObsTable` (`src/lightcurvelynx/obstable/roman_obstable.py`), its construction

The four characterisation tables (`_get_roman_char`, lines 46-57) are fetched from the network: they are lists of rows, or the exception the reading
raises. Only the columns that are used are modelled. `BANDPASS` holds strings, `PASS` and `MA_TABLE_NUMBER` numbers (a column with cells of another
kind is modelled by TypeError, where pandas would compare and then not find the entry). The error model of the class is in `Model/Photometry.lean`.
-/

namespace LCL.Roman
open LCL ObsTable Real

/-- roman_obstable.py:46-57: (filter, value) rows of the four tables: zero point magnitude, effective number of pixels, zodiacal and thermal rates. -/
structure Chars where
  zp : List (Name × ℝ)
  pix : List (Name × ℝ)
  zodi : List (Name × ℝ)
  thermal : List (Name × ℝ)

/-- roman_obstable.py:60-68 `_get_ma_table`: (number, exposure time) rows of the file of the package; with a path given the variable `ma_table_file`
is never set. -/
def maTable (file : Except Err (List (ℝ × ℝ))) : Option Name → Except Err (List (ℝ × ℝ))
  | none => file
  | some _ => .error .unboundLocal

open Classical in
/-- `table.loc[table.key == f, "value"].values[0]`: the value of the first row with the key, IndexError if there is none. -/
noncomputable def firstOf {κ : Type} (rows : List (κ × ℝ)) (f : κ) : Except Err ℝ :=
  match rows.find? fun q => decide (q.1 = f) with
  | some q => .ok q.2
  | none => .error .indexError

/-- roman_obstable.py:118-123: the columns that are added. -/
structure Added where
  zp : List ℝ
  pix : List ℝ
  zodi : List ℝ
  thermal : List ℝ
  time : List ℝ
  exptime : List ℝ

/-- roman_obstable.py:118-123: all zero at first. -/
def zeros (n : Nat) : Added := ⟨List.replicate n 0, List.replicate n 0, List.replicate n 0, List.replicate n 0, List.replicate n 0, List.replicate n 0⟩

open Classical in
/-- `table.loc[f == table.KEY, "column"] = x`. -/
noncomputable def put {κ : Type} (keys : List κ) (f : κ) (x : ℝ) (col : List ℝ) : List ℝ := List.zipWith (fun k y => if k = f then x else y) keys col

/-- roman_obstable.py:125-133: the loop over the filters. -/
noncomputable def bandLoop (ch : Chars) (bands : List Name) : List Name → Added → Added × Option Err
  | [], a => (a, none)
  | f :: fs, a => match firstOf ch.zp f with
    | .error e => (a, some e)
    | .ok z =>
      let a := { a with zp := put bands f z a.zp }
      match firstOf ch.pix f with
      | .error e => (a, some e)
      | .ok p =>
        let a := { a with pix := put bands f p a.pix }
        match firstOf ch.zodi f with
        | .error e => (a, some e)
        | .ok o =>
          let a := { a with zodi := put bands f o a.zodi }
          match firstOf ch.thermal f with
          | .error e => (a, some e)
          | .ok t => bandLoop ch bands fs { a with thermal := put bands f t a.thermal }

/-- roman_obstable.py:135-137: the loop over the MA table numbers. -/
noncomputable def maLoop (ma : List (ℝ × ℝ)) (nums : List ℝ) : List ℝ → Added → Added × Option Err
  | [], a => (a, none)
  | m :: ms, a => match firstOf ma m with
    | .error e => (a, some e)
    | .ok x => maLoop ma nums ms { a with exptime := put nums m x a.exptime }

/-- roman_obstable.py:142-144: the loop over the passes; `i` is the number of passes before. -/
noncomputable def passLoop (passes : List ℝ) : List ℝ → Nat → Added → Added
  | [], _, a => a
  | p :: ps, i, a => passLoop passes ps (i + 1) { a with time := put passes p (61304 + 5 * (i : ℝ)) a.time }

open Classical in
/-- `np.unique` of numbers. -/
noncomputable def uniqueNums (l : List ℝ) : List ℝ := (l.mergeSort fun a b => decide (a ≤ b)).dedup

/-- A column used as an attribute (`table.BANDPASS`): AttributeError if there is none. -/
def attrCol {β : Type} (read : Cell → Except Err β) (cols : Dict Name (List Cell)) (name : Name) : Except Err (List β) :=
  match cols.get? name with
  | none => .error .attributeError
  | some c => c.mapM read

/-- The frame with the added columns. -/
def attach (cols : Dict Name (List Cell)) (a : Added) : Dict Name (List Cell) :=
  (((((cols.set "zp_abmag".toList (a.zp.map .num)).set "N_Eff_Pix".toList (a.pix.map .num)).set "zodi_countrate_min".toList (a.zodi.map .num)).set
    "thermal_countrate".toList (a.thermal.map .num)).set "time".toList (a.time.map .num)).set "exptime".toList (a.exptime.map .num)

/-- roman_obstable.py:117-146 `_append_apt_table`: the caller's frame afterwards, and the exception. -/
noncomputable def append (ch : Chars) (ma : List (ℝ × ℝ)) (n : Nat) (cols : Dict Name (List Cell)) : Dict Name (List Cell) × Option Err :=
  match attrCol Cell.str? (attach cols (zeros n)) "BANDPASS".toList with
  | .error e => (attach cols (zeros n), some e)
  | .ok bands =>
    let r := bandLoop ch bands (npUnique bands) (zeros n)
    match r.2 with
    | some e => (attach cols r.1, some e)
    | none => match attrCol Cell.num? (attach cols r.1) "MA_TABLE_NUMBER".toList with
      | .error e => (attach cols r.1, some e)
      | .ok nums =>
        let r := maLoop ma nums (uniqueNums nums) r.1
        match r.2 with
        | some e => (attach cols r.1, some e)
        | none => match attrCol Cell.num? (attach cols r.1) "PASS".toList with
          | .error e => (attach cols r.1, some e)
          | .ok passes =>
            let a := passLoop passes (uniqueNums passes) 0 r.1
            ((attach cols a).set "zp_nJy".toList ((a.zp.map mag2flux).map .num), none)

/-- roman_obstable.py:91-101: the class. -/
noncomputable def romanClass : TableClass :=
  { required := baseRequired
    defaults :=
      [("dark_current".toList, .num 0), ("pixel_scale".toList, .num 0.11), ("survey_name".toList, .text "Roman".toList),
       ("radius".toList, .num (sqrt (0.28 / π))), ("zodi_level".toList, .num 1.5)]
    colmap :=
      [("dec".toList, "DEC".toList), ("filter".toList, "BANDPASS".toList), ("ra".toList, "RA".toList), ("zp".toList, "zp_nJy".toList),
       ("time".toList, "time".toList)]
    assignZp := fun t => .ok t }

/-- What is to be read from outside: the MA table of the package and the four tables of the network. -/
structure World where
  ma : Except Err (List (ℝ × ℝ))
  chars : Except Err Chars

/-- roman_obstable.py:103-115 `RomanObsTable(table, colmap, ma_table_path, **kwargs)`: the caller's frame afterwards, and the table or the exception. -/
noncomputable def romanInit (W : World) (f : Frame) (colmap : Option (Dict Name Name)) (path : Option Name) (kw : Dict Name SVal)
    (footprint : Option (ℝ → ℝ → ℝ → ℝ → Option ℝ → Bool)) : Frame × Except Err ObsTable :=
  match maTable W.ma path with
  | .error e => (f, .error e)
  | .ok ma => match W.chars with
    | .error e => (f, .error e)
    | .ok ch =>
      let r := append ch ma f.labels.length f.cols
      match r.2 with
      | some e => ({ f with cols := r.1 }, .error e)
      | none => ({ f with cols := r.1 }, construct romanClass { f with cols := r.1 } colmap kw footprint)

/-- obs_table.py:285-302 `RomanObsTable.from_parquet`. -/
noncomputable def romanFromParquet (W : World) (file : Option Frame) : Except Err ObsTable :=
  match file with
  | none => .error .fileNotFound
  | some f => (romanInit W f none none [] none).2

end LCL.Roman
