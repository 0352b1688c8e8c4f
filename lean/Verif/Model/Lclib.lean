import Verif.Model.GridIO

/-!
# Model of the LCLIB reader (`src/lightcurvelynx/utils/io_utils.py`, lines 151-273)
-/

namespace LCL

/-- `str.isspace` of one character. -/
def isSpace (c : Char) : Bool :=
  let n := c.toNat
  (9 ≤ n && n ≤ 13) || (28 ≤ n && n ≤ 32) || n == 0x85 || n == 0xa0 || n == 0x1680 || (0x2000 ≤ n && n ≤ 0x200a) ||
    n == 0x2028 || n == 0x2029 || n == 0x202f || n == 0x205f || n == 0x3000

/-- `str.rstrip()`. -/
def rstrip (l : List Char) : List Char := (l.reverse.dropWhile isSpace).reverse

/-- `str.strip()`. -/
def strip (l : List Char) : List Char := rstrip (l.dropWhile isSpace)

/-- `l.split(c, 1)` if the character occurs. -/
def splitFirst (c : Char) : List Char → Option (List Char × List Char)
  | [] => none
  | x :: xs => if x = c then some ([], xs) else match splitFirst c xs with
    | some (a, b) => some (x :: a, b)
    | none => none

/-- `l.split(c)` for a single character. -/
def splitChar (c : Char) : List Char → List (List Char)
  | [] => [[]]
  | x :: xs => if x = c then [] :: splitChar c xs else match splitChar c xs with
    | [] => [[x]]
    | w :: ws => (x :: w) :: ws

/-- `l.split()`: the maximal pieces without white space. -/
def splitWords : List Char → List (List Char)
  | [] => []
  | x :: xs => if isSpace x then splitWords xs
    else match xs with
      | [] => [[x]]
      | y :: _ => if isSpace y then [x] :: splitWords xs
        else match splitWords xs with
          | [] => [[x]]
          | w :: ws => (x :: w) :: ws

/-- An entry of the metadata: text, or the dictionary of the model parameters. -/
inductive LcMeta
  | str (s : Name)
  | params (d : Dict Name Name)
deriving DecidableEq

/-- An `astropy` table made from the dictionary of columns, with a copy of the metadata. The column `type`, which
holds text, is kept apart from the columns of numbers; it is absent if there are no columns at all. -/
structure LcTable (F : Type) where
  types : Option (List Name)
  cols : Dict Name (List F)
  info : Dict Name LcMeta

/-- io_utils.py:164-169: the local variables; `current_model` is `types` and `cols`. -/
structure LcState (F : Type) where
  colnames : List Name
  curves : List (LcTable F)
  info : Dict Name LcMeta
  types : Option (List Name)
  cols : Dict Name (List F)
  parnames : List Name
  doc : Bool

/-- io_utils.py:164-169. -/
def LcState.init {F : Type} : LcState F := ⟨[], [], [], none, [], [], false⟩

variable {F : Type}

/-- io_utils.py:199-204: `END_EVENT`. The table cannot be made from columns of different lengths. -/
def lcEnd (value : Name) (s : LcState F) : Except Err (LcState F) :=
  if (s.info.get? "id".toList).getD (.str []) ≠ .str value then .error .valueError
  else if (s.cols.all fun c => decide (c.2.length = (s.types.getD []).length)) = true then
    .ok { s with curves := s.curves ++ [⟨s.types, s.cols, s.info⟩] }
  else .error .valueError

/-- io_utils.py:210-212: `current_model[col] = []` for each column. -/
def lcReset (colnames : List Name) (d : Dict Name (List F)) : Dict Name (List F) :=
  colnames.foldl (fun d c => d.set c []) d

/-- io_utils.py:206-213: `START_EVENT`. -/
def lcStart (value : Name) (s : LcState F) : Except Err (LcState F) :=
  if s.colnames.length = 0 then .error .valueError
  else .ok { s with types := some [], cols := lcReset s.colnames s.cols, info := s.info.set "id".toList (.str value) }

/-- io_utils.py:222-223; `parse` is `float`, undefined where it raises ValueError. -/
def lcAppend (parse : Name → Option F) : List Name → List Name → Dict Name (List F) → Except Err (Dict Name (List F))
  | [], _, d => .ok d
  | _ :: _, [], _ => .error .indexError
  | c :: cs, v :: vs, d =>
    match d.get? c with
    | none => .error .keyError
    | some l => match parse v with
      | none => .error .valueError
      | some x => lcAppend parse cs vs (d.set c (l ++ [x]))

/-- io_utils.py:216-223: an observation or template row. -/
def lcRow (parse : Name → Option F) (key value : Name) (s : LcState F) : Except Err (LcState F) :=
  match s.types with
  | none => .error .keyError
  | some ts =>
    if (splitWords value).length ≠ s.colnames.length then .error .valueError
    else match lcAppend parse s.colnames (splitWords value) s.cols with
      | .error e => .error e
      | .ok d => .ok { s with types := some (ts ++ [key]), cols := d }

/-- io_utils.py:227-230. -/
def lcParvals (value : Name) : List Name := if ',' ∈ value then splitChar ',' value else splitWords value

/-- io_utils.py:234: `{key: value for key, value in zip(names, vals)}`. -/
def lcParDict (names vals : List Name) : Dict Name Name := (names.zip vals).foldl (fun d q => d.set q.1 q.2) []

/-- io_utils.py:227-234: `PARVAL`. -/
def lcParval (value : Name) (s : LcState F) : Except Err (LcState F) :=
  if (lcParvals value).length ≠ s.parnames.length then .error .valueError
  else .ok { s with info := s.info.set "PARVAL".toList (.params (lcParDict s.parnames (lcParvals value))) }

/-- io_utils.py:191-237: one key and value. -/
def lcStmt (parse : Name → Option F) (key value : Name) (s : LcState F) : Except Err (LcState F) :=
  if key = "COMMENT".toList then .ok s
  else if key = "FILTERS".toList then .ok { s with colnames := "time".toList :: value.map fun c => [c] }
  else if key = "END_EVENT".toList then lcEnd value s
  else if key = "START_EVENT".toList then lcStart value s
  else if key = "S".toList ∨ key = "T".toList then lcRow parse key value s
  else if key = "MODEL_PARNAMES".toList ∨ key = "MODEL_PARAMETERS".toList then .ok { s with parnames := splitChar ',' value }
  else if key = "PARVAL".toList then lcParval value s
  else .ok { s with info := s.info.set key (.str value) }

/-- io_utils.py:183-186. -/
def lcDoc (key : Name) (doc : Bool) : Bool :=
  if key = "DOCUMENTATION".toList then true else if key = "DOCUMENTATION_END".toList then false else doc

/-- io_utils.py:174-179: the key and the value of a line, if it has them. -/
def lcKeyValue (line : List Char) : Option (Name × Name) :=
  match splitFirst ':' (strip (line.takeWhile (fun c => decide (c ≠ '#')))) with
  | none => none
  | some (key, value) => some (key, strip value)

/-- io_utils.py:174-237: the body of the loop. -/
def lcLine (parse : Name → Option F) (line : List Char) (s : LcState F) : Except Err (LcState F) :=
  match lcKeyValue line with
  | none => .ok s
  | some (key, value) =>
    if lcDoc key s.doc then .ok { s with doc := true } else lcStmt parse key value { s with doc := false }

/-- io_utils.py:171-237: the loop. -/
def lcLines (parse : Name → Option F) : List (List Char) → LcState F → Except Err (LcState F)
  | [], s => .ok s
  | l :: ls, s => match lcLine parse l s with
    | .error e => .error e
    | .ok s' => lcLines parse ls s'

/-- io_utils.py:151-239 `_read_lclib_data_from_open_file`. -/
def lcRead (parse : Name → Option F) (lines : List (List Char)) : Except Err (List (LcTable F)) :=
  match lcLines parse lines .init with
  | .error e => .error e
  | .ok s => .ok s.curves

/-- A file on disk: text, or compressed text. -/
inductive LcFile
  | plain (lines : List (List Char))
  | gz (lines : List (List Char))

/-- io_utils.py:242-273 `read_lclib_data`. Opening text as compressed text raises OSError (`BadGzipFile`); compressed
data read as text is taken not to decode (UnicodeDecodeError, a ValueError). -/
def lcReadFile (parse : Name → Option F) (fs : Dict Name LcFile) (path : Name) : Except Err (List (LcTable F)) :=
  match fs.get? path with
  | none => .error .fileNotFound
  | some file =>
    if (pathSuffix path).map Char.toLower ∈ [".gz".toList, ".gzip".toList] then match file with
      | .gz lines => lcRead parse lines
      | .plain _ => .error .osError
    else if (pathSuffix path).map Char.toLower ∈ [".dat".toList, ".txt".toList, ".text".toList] then match file with
      | .plain lines => lcRead parse lines
      | .gz _ => .error .valueError
    else .error .valueError

end LCL
