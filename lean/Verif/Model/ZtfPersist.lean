import Verif.Model.RandomSurvey

/-!
# Saving and loading ZTF tables

`ZTFObsTable.from_db` (obstable/ztf_obstable.py lines 111-152) and `from_parquet` (inherited, obs_table.py lines 285-302), which go through the constructor of the class.
-/

namespace LCL.ZtfPersist
open LCL LCL.RandomSurvey

/-- obs_table.py:285-302 `ZTFObsTable.from_parquet`: the constructor of the class on the saved frame. -/
noncomputable def ztfFromParquet (mjd : Name → Except Err ℝ) (file : Option Frame) : Except Err ObsTable :=
  match file with
  | none => .error .fileNotFound
  | some f => ztfInit mjd f none [] none

/-- ztf_obstable.py:112: the table read by `ZTFObsTable.from_db` without a query. -/
def defaultTable : Name := "exposures".toList

/-- obs_table.py:378: the table written by `write_db` without a name. -/
def defaultWritten : Name := "observations".toList

/-- ztf_obstable.py:111-152 `ZTFObsTable.from_db` with the query `SELECT * FROM table` (`none`: the default). -/
noncomputable def ztfFromDb (mjd : Name → Except Err ℝ) (file : Option Database) (table : Option Name) (colmap : Option (Dict Name Name)) : Except Err ObsTable :=
  match file with
  | none => .error .fileNotFound
  | some db => match db.get? (table.getD defaultTable) with
    | none => .error .valueError
    | some cols => ztfInit mjd ⟨cols, rangeLabels cols, none⟩ (some (colmap.getD ztfClass.colmap)) [] none

end LCL.ZtfPersist
