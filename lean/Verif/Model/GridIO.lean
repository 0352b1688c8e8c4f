import Verif.Base.Py
import Verif.Base.Num
import Mathlib.Data.List.Dedup

/-!
# Model of `read_numpy_data`, `write_numpy_data` and `read_grid_data` (`src/lightcurvelynx/utils/io_utils.py`)
-/

namespace LCL

section Grid
variable {K : Type} [LinearOrder K]

/-- `np.sort(np.unique(l))`. -/
def uniqueSorted (l : List K) : List K := (l.mergeSort (fun a b => decide (a ≤ b))).dedup

/-- io_utils.py:129-143: the loop of the validation; the first list holds the expected `(x0[i], x1[j])`. -/
def checkOrder : List (K × K) → List (K × K) → Except Err Unit
  | [], _ => .ok ()
  | _ :: _, [] => .error .indexError
  | e :: es, d :: ds =>
    if d.1 ≠ e.1 then .error .valueError
    else if d.2 ≠ e.2 then .error .valueError
    else checkOrder es ds

/-- io_utils.py:131-132: the order in which the grid points are expected. -/
def gridOrder (x0 x1 : List K) : List (K × K) := x0.flatMap fun a => x1.map fun b => (a, b)

/-- `l.reshape((n, m))`. -/
def reshape {β : Type} : Nat → Nat → List β → List (List β)
  | 0, _, _ => []
  | n + 1, m, l => l.take m :: reshape n m (l.drop m)

/-- io_utils.py:121-148, given the three columns. -/
def gridFrom (c0 c1 v : List K) (validate : Bool) : Except Err (List K × List K × List (List K)) :=
  if c0.length ≠ (uniqueSorted c0).length * (uniqueSorted c1).length then .error .valueError
  else match (if validate then checkOrder (gridOrder (uniqueSorted c0) (uniqueSorted c1)) (c0.zip c1) else .ok ()) with
    | .error e => .error e
    | .ok _ => .ok (uniqueSorted c0, uniqueSorted c1, reshape (uniqueSorted c0).length (uniqueSorted c1).length v)

/-- io_utils.py:69-148 `read_grid_data`. `file` is what the table reader finds: the columns of the table, all of one
length, or nothing if there is no file. Values are of one linearly ordered type (no NaN). -/
def readGrid (file : Option (List (List K))) (validate : Bool) : Except Err (List K × List K × List (List K)) :=
  match file with
  | none => .error .fileNotFound
  | some [c0, c1, v] => gridFrom c0 c1 v validate
  | some _ => .error .valueError

end Grid

/-! ### Numpy files -/

/-- An array of at most two dimensions, or one of more. -/
inductive NpArr (V : Type)
  | zero (x : V)
  | one (l : List V)
  | two (cols : Nat) (rows : List (List V))
  | more (dims : List Nat) (l : List V)
deriving DecidableEq

/-- The content of a file: an array (`.npy`), a dictionary of arrays (`.npz`), or text: the delimiter and the rows of
numbers. -/
inductive FileContent (V : Type)
  | npy (a : NpArr V)
  | npz (d : Dict Name (NpArr V))
  | text (delim : Char) (rows : List (List V))

/-- `str.rfind('.')` as the part of the string from the last dot on, with the number of characters before it. -/
def lastDot : List Char → Option (Nat × List Char)
  | [] => none
  | c :: cs => match lastDot cs with
    | some (n, s) => some (n + 1, s)
    | none => if c = '.' then some (0, c :: cs) else none

/-- The final component of a path. -/
def baseName (path : List Char) : List Char :=
  (path.reverse.takeWhile (· ≠ '/')).reverse

/-- `Path(path).suffix`: from the last dot of the final component on, unless that dot is its first or last
character. -/
def pathSuffix (path : List Char) : List Char :=
  match lastDot (baseName path) with
  | some (n, s) => if 0 < n ∧ 1 < s.length then s else []
  | none => []

variable {V : Type}

/-- `np.savetxt`: a one-dimensional array is written as a column. -/
def saveText (delim : Char) : NpArr V → Except Err (FileContent V)
  | .one l => .ok (.text delim (l.map fun x => [x]))
  | .two _ rows => .ok (.text delim rows)
  | _ => .error .valueError

/-- `np.loadtxt` of rows of numbers: axes of length one are removed; blank lines are skipped. -/
def squeezeRows (rows : List (List V)) : NpArr V :=
  match rows with
  | [] => .one []
  | [[x]] => .zero x
  | [l] => .one l
  | l :: _ => if l.length = 1 then .one rows.flatten else .two l.length rows

/-- `np.loadtxt(file, delimiter=delim)`: rows of several numbers separated otherwise cannot be parsed. -/
def loadText (delim : Char) : FileContent V → Except Err (NpArr V)
  | .text d rows =>
    if d = delim ∨ (rows.all fun r => decide (r.length ≤ 1)) = true then .ok (squeezeRows (rows.filter fun r => decide (0 < r.length)))
    else .error .valueError
  | _ => .error .valueError

/-- `np.load(file)`. -/
def loadNpy : FileContent V → Except Err (NpArr V)
  | .npy a => .ok a
  | _ => .error .valueError

/-- `np.load(file)[key]` on an archive. -/
def loadNpz (key : Name) : FileContent V → Except Err (NpArr V)
  | .npz d => match d.get? key with
    | some a => .ok a
    | none => .error .keyError
  | _ => .error .valueError

/-- io_utils.py:9-41 `read_numpy_data`; `fs` maps the paths of files to their contents. -/
def readNumpy (fs : Dict Name (FileContent V)) (path : Name) : Except Err (NpArr V) :=
  match fs.get? path with
  | none => .error .fileNotFound
  | some c =>
    if pathSuffix path = ".npy".toList then loadNpy c
    else if pathSuffix path = ".npz".toList then loadNpz "arr_0".toList c
    else if pathSuffix path ∈ [".csv".toList, ".ecsv".toList] then loadText ',' c
    else if pathSuffix path ∈ [".txt".toList] then loadText ' ' c
    else .error .valueError

/-- io_utils.py:57-66: what is written. -/
def numpyContent (suffix : Name) (data : NpArr V) : Except Err (FileContent V) :=
  if suffix = ".npy".toList then .ok (.npy data)
  else if suffix = ".npz".toList then .ok (.npz [("arr_0".toList, data)])
  else if suffix ∈ [".csv".toList, ".ecsv".toList] then saveText ',' data
  else if suffix ∈ [".txt".toList, ".dat".toList] then saveText ' ' data
  else .error .valueError

/-- io_utils.py:44-66 `write_numpy_data`. Numbers are written to text files with 19 significant digits, from which
they are read back unchanged. -/
def writeNumpy (fs : Dict Name (FileContent V)) (path : Name) (data : NpArr V) : Except Err (Dict Name (FileContent V)) :=
  match numpyContent (pathSuffix path) data with
  | .error e => .error e
  | .ok c => .ok (fs.set path c)

end LCL
