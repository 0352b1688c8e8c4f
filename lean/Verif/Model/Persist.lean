import Verif.Model.ObsTable

/-!
# Model of saving and loading observation tables

`obstable/obs_table.py` lines 119-129 (survey values), 245-302 (`from_db`, `from_parquet`) and 378-426 (`write_db`, `write_parquet`),
with the class attributes of `ObsTable` and `OpSim` (obs_table.py:67-78, opsim.py:64-99).

Files are values: a parquet file holds the frame that was written (columns in order, index labels, and the attributes, which pandas stores
as JSON); a database file is a dictionary of tables. `DataFrame.to_sql` with its default `index=True` writes the index as a first column called
`index`, or `level_0` when there is a column `index`; sqlite compares column names without case and refuses to create a table with equal ones; with
`if_exists="replace"` the old table is dropped before the new one is created, and stays dropped when that fails (DDL is not in a transaction).
Not modelled: NULL for missing values, the types of columns (numbers and strings survive), table names that differ in case only.
-/

namespace LCL
open ObsTable

/-- A pandas frame with its attributes (`attrs["lightcurvelynx_survey_data"]`, a dictionary if present). -/
structure Frame where
  cols : Dict Name (List Cell)
  labels : List Int
  attrs : Option (Dict Name SVal)

/-- obs_table.py:67-78, opsim.py:64-99: what a class defines. `colmap` is the column map used when none is given. -/
structure TableClass where
  required : List Name
  defaults : Dict Name SVal
  colmap : Dict Name Name
  assignZp : ObsTable → Except Err ObsTable

/-- `for key, value in d.items(): survey_values[key] = value` (obs_table.py:126-129). -/
def putAll (a d : Dict Name SVal) : Dict Name SVal := d.foldl (fun acc q => acc.set q.1 q.2) a

/-- obs_table.py:119-129: defaults, then the table's metadata, then keyword arguments. -/
def mergeSurvey (defaults : Dict Name SVal) (attrs : Option (Dict Name SVal)) (kw : Dict Name SVal) : Dict Name SVal :=
  putAll (match attrs with | none => defaults | some m => putAll defaults m) kw

/-- opsim.py:98: the column map given, or that of the class. -/
def chosenMap (C : TableClass) : Option (Dict Name Name) → Dict Name Name
  | some m => m
  | none => C.colmap

/-- obs_table.py:80-146 and opsim.py:92-99: the constructor of the class. -/
noncomputable def construct (C : TableClass) (f : Frame) (colmap : Option (Dict Name Name)) (kw : Dict Name SVal)
    (footprint : Option (ℝ → ℝ → ℝ → ℝ → Option ℝ → Bool)) : Except Err ObsTable :=
  ObsTable.init C.required C.assignZp f.cols f.labels (chosenMap C colmap) (mergeSurvey C.defaults f.attrs kw) footprint

/-- obs_table.py:406-426 `write_parquet`: the file afterwards and the exception. (`FileExistsError` is an `OSError`.) -/
def writeParquet (file : Option Frame) (t : ObsTable) (overwrite : Bool) : Option Frame × Option Err :=
  if overwrite = false ∧ file.isSome then (file, some .osError)
  else (some ⟨t.cols, t.labels, some t.survey⟩, none)

/-- obs_table.py:285-302 `from_parquet`. -/
noncomputable def fromParquet (C : TableClass) (file : Option Frame) : Except Err ObsTable :=
  match file with
  | none => .error .fileNotFound
  | some f => construct C f none [] none

/-- A database file: its tables, each a list of named columns. -/
abbrev Database := Dict Name (Dict Name (List Cell))

/-- sqlite's comparison of column names ignores the case. -/
def lowered (n : Name) : Name := n.map Char.toLower

/-- pandas `SQLTable._index_name`: the name of the index column. -/
def indexName (cols : Dict Name (List Cell)) : Name := if cols.has "index".toList then "level_0".toList else "index".toList

/-- obs_table.py:378-404 `write_db`: the file afterwards (`sqlite3.connect` creates it) and the exception. -/
noncomputable def writeDb (file : Option Database) (t : ObsTable) (table : Name) (overwrite : Bool) : Option Database × Option Err :=
  let db := file.getD []
  if db.has table = true ∧ overwrite = false then (some db, some .valueError)
  else
    let new : Dict Name (List Cell) := (indexName t.cols, t.labels.map fun (i : Int) => Cell.num (i : ℝ)) :: t.cols
    if (new.keys.map lowered).Nodup then (some ((db.erase table).set table new), none)
    else (some (db.erase table), some .valueError)

/-- The labels of a frame read from a database: 0, 1, ... -/
def rangeLabels (cols : Dict Name (List Cell)) : List Int :=
  match cols with
  | [] => []
  | (_, c) :: _ => (List.range c.length).map fun (i : Nat) => (i : Int)

/-- obs_table.py:245-283 `from_db` with the query `SELECT * FROM table` and its keyword arguments. -/
noncomputable def fromDb (C : TableClass) (file : Option Database) (table : Name) (colmap : Option (Dict Name Name)) (kw : Dict Name SVal)
    (footprint : Option (ℝ → ℝ → ℝ → ℝ → Option ℝ → Bool)) : Except Err ObsTable :=
  match file with
  | none => .error .fileNotFound
  | some db => match db.get? table with
    | none => .error .valueError
    | some cols => construct C ⟨cols, rangeLabels cols, none⟩ colmap kw footprint

/-- obs_table.py:67-78: the base class. -/
def baseClass : TableClass :=
  ⟨baseRequired, [("dark_current".toList, .none), ("ext_coeff".toList, .none), ("pixel_scale".toList, .none), ("radius".toList, .none),
    ("read_noise".toList, .none), ("zp_per_sec".toList, .none), ("survey_name".toList, .text "Unknown".toList)], [], fun t => .ok t⟩

end LCL
