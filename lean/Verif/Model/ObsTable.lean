import Verif.Model.Physical
import Mathlib.Analysis.SpecialFunctions.Trigonometric.Inverse
import Mathlib.Analysis.Real.Sqrt

/-!
# Model of `ObsTable` (`src/lightcurvelynx/obstable/obs_table.py`)

The pandas table is a dictionary from column names to columns together with the list of its index labels
(one per row). A cell is a number or a string. Angles are real numbers in degrees, arithmetic is exact.
`scipy.spatial.KDTree.query_ball_point` on an N x 3 array of queries is modelled by its contract: for each
query the increasing list of the positions of all points at Euclidean distance at most r.
Not modelled: NaN values, reading and writing files, the plotting code (`build_moc` is in `Model/MocChain.lean`).
-/

namespace LCL
open Real

/-- A cell of the table. -/
inductive Cell
  | num (x : ℝ)
  | str (s : Name)

/-- A number cell, as numpy arithmetic sees it. -/
def Cell.num? : Cell → Except Err ℝ
  | .num x => .ok x
  | .str _ => .error .typeError

/-- A string cell. -/
def Cell.str? : Cell → Except Err Name
  | .str s => .ok s
  | .num _ => .error .typeError

/-- A value of the dictionary `survey_values`: obs_table.py:121-129. -/
inductive SVal
  | none
  | num (x : ℝ)
  | perFilter (d : Dict Name Cell)
  | text (s : Name)

/-- obs_table.py:63-146: the attributes of an `ObsTable`. `tree` holds the points the kd-tree was built from;
`footprint ra dec centerRa centerDec rotation` is the pointwise membership test of the detector footprint
(modelled in `Model/Footprint.lean`). -/
structure ObsTable where
  cols : Dict Name (List Cell)
  labels : List Int
  invColmap : Dict Name Name
  survey : Dict Name SVal
  filters : List Name
  tree : List (ℝ × ℝ × ℝ)
  footprint : Option (ℝ → ℝ → ℝ → ℝ → Option ℝ → Bool)

namespace ObsTable

/-- obs_table.py:148-149 `__len__`. -/
def len (t : ObsTable) : Nat := t.labels.length

/-- obs_table.py:151-157 `__getitem__`. -/
def getItem (t : ObsTable) (key : Name) : Except Err (List Cell) :=
  match t.cols.get? key with
  | some c => .ok c
  | none => match t.invColmap.get? key with
    | some k => match t.cols.get? k with
      | some c => .ok c
      | none => .error .keyError
    | none => .error .keyError

/-- obs_table.py:159-165 `__contains__`. -/
def contains (t : ObsTable) (key : Name) : Bool :=
  if t.cols.has key then true
  else match t.invColmap.get? key with
    | some k => t.cols.has k
    | none => false

/-- `self._table[name].to_numpy()` used in arithmetic. -/
def numCol (cols : Dict Name (List Cell)) (name : Name) : Except Err (List ℝ) :=
  match cols.get? name with
  | none => .error .keyError
  | some c => c.mapM Cell.num?

/-- obs_table.py:338-344 and 551-556: a point of the unit sphere. -/
noncomputable def toCart (ra dec : ℝ) : ℝ × ℝ × ℝ :=
  let a := ra * (π / 180)
  let d := dec * (π / 180)
  (cos d * cos a, cos d * sin a, sin d)

/-- obs_table.py:336-347 `_build_kd_tree`. -/
noncomputable def buildTree (cols : Dict Name (List Cell)) : Except Err (List (ℝ × ℝ × ℝ)) :=
  match numCol cols "ra".toList with
  | .error e => .error e
  | .ok ras => match numCol cols "dec".toList with
    | .error e => .error e
    | .ok decs => .ok (List.zipWith toCart ras decs)

/-- obs_table.py:100-111: the maps `name_map` (as changes to the identity) and `_inv_colmap`. -/
def remap (columns : List Name) : List (Name × Name) → Dict Name Name → Dict Name Name →
    Except Err (Dict Name Name × Dict Name Name)
  | [], nameMap, inv => .ok (nameMap, inv)
  | (key, value) :: rest, nameMap, inv =>
    if value ∈ columns then
      if key ∈ columns ∧ key ≠ value then .error .valueError
      else remap columns rest (nameMap.set value key) (inv.set value key)
    else remap columns rest nameMap (inv.set value key)

/-- `table.rename(columns=name_map)`. -/
def rename (nameMap : Dict Name Name) (cols : Dict Name (List Cell)) : Dict Name (List Cell) :=
  cols.map fun q => ((nameMap.get? q.1).getD q.1, q.2)

/-- obs_table.py:131: the distinct filters, sorted. -/
def uniqueFilters (cols : Dict Name (List Cell)) : Except Err (List Name) :=
  match cols.get? "filter".toList with
  | none => .ok []
  | some c => match c.mapM Cell.str? with
    | .error e => .error e
    | .ok l => .ok (npUnique l)

/-- obs_table.py:80-146 `__init__` on a table with the given columns and index labels. `survey` is the
dictionary of survey values after merging defaults, metadata and keyword arguments (lines 121-129).
`assignZp` is the subclass's `_assign_zero_points`, `required` its `_required_columns`. -/
noncomputable def init (required : List Name) (assignZp : ObsTable → Except Err ObsTable) (cols : Dict Name (List Cell))
    (labels : List Int) (colmap : Dict Name Name) (survey : Dict Name SVal)
    (footprint : Option (ℝ → ℝ → ℝ → ℝ → Option ℝ → Bool)) : Except Err ObsTable :=
  match remap cols.keys colmap [] [] with
  | .error e => .error e
  | .ok (nameMap, inv) =>
    if required.all fun c => (rename nameMap cols).has c then
      match uniqueFilters (rename nameMap cols) with
      | .error e => .error e
      | .ok fs =>
        let t : ObsTable := ⟨rename nameMap cols, labels, inv, survey, fs, [], footprint⟩
        match (if t.contains "zp".toList then .ok t else assignZp t) with
        | .error e => .error e
        | .ok t => match buildTree t.cols with
          | .error e => .error e
          | .ok tree => .ok { t with tree := tree }
    else .error .keyError

/-- obs_table.py:67 `_required_columns`. -/
def baseRequired : List Name := ["ra".toList, "dec".toList, "time".toList]

/-- The values given to `add_column`. -/
inductive ColArg
  | scalar (c : Cell)
  | column (l : List Cell)

/-- obs_table.py:357-376 `add_column` (pandas raises ValueError when the lengths differ). -/
def addColumn (t : ObsTable) (name : Name) (values : ColArg) (overwrite : Bool := false) : Except Err ObsTable :=
  if t.cols.has name = true ∧ overwrite = false then .error .keyError
  else match values with
    | .scalar c => .ok { t with cols := t.cols.set name (List.replicate t.len c) }
    | .column l => if l.length = t.len then .ok { t with cols := t.cols.set name l } else .error .valueError

/-- obs_table.py:228-238: the property `radius` and its setter. -/
def radius (t : ObsTable) : Option ℝ :=
  match t.survey.get? "radius".toList with
  | some (.num x) => some x
  | _ => none

open Classical in
noncomputable def setRadius (t : ObsTable) (x : ℝ) : Except Err ObsTable :=
  if x ≤ 0 then .error .valueError else .ok { t with survey := t.survey.set "radius".toList (.num x) }

/-- obs_table.py:167-169 `clear_detector_footprint`. -/
def clearFootprint (t : ObsTable) : ObsTable := { t with footprint := none }

/-- obs_table.py:194-196: a single number means the same number for every filter. A survey value that is a
text is searched as a string (`fil not in value`) and never maps to a number, so it raises ValueError (or TypeError, if the filter's
name is part of the text; the model always raises ValueError). -/
def perFilter (filters : List Name) : SVal → Dict Name Cell
  | .num x => filters.map fun f => (f, .num x)
  | .perFilter d => d
  | _ => []

open Classical in
/-- obs_table.py:200-208: the loop over the filters; `rows` is the filter column. -/
noncomputable def fillFilters (checkPositive : Bool) (rows : List Name) (value : Dict Name Cell) :
    List Name → List ℝ → Except Err (List ℝ)
  | [], out => .ok out
  | f :: fs, out => match value.get? f with
    | none => .error .valueError
    | some (.str _) => .error .valueError
    | some (.num x) =>
      if checkPositive = true ∧ x ≤ 0 then .error .valueError
      else fillFilters checkPositive rows value fs
        (List.zipWith (fun r y => if r = f then x else y) rows out)

/-- obs_table.py:171-211 `_assign_constant_if_needed` (the returned boolean and the table). -/
noncomputable def assignConstant (t : ObsTable) (name : Name) (checkPositive : Bool := true) :
    Except Err (ObsTable × Bool) :=
  if t.cols.has name then .ok (t, true)
  else match t.survey.get? name with
    | none => .ok (t, false)
    | some .none => .ok (t, false)
    | some v =>
      let rows : Except Err (List Name) := match t.cols.get? "filter".toList with
        | none => .ok []
        | some c => c.mapM Cell.str?
      match rows with
      | .error e => .error e
      | .ok rows =>
        match fillFilters checkPositive rows (perFilter t.filters v) t.filters (List.replicate t.len 0) with
        | .error e => .error e
        | .ok out => match t.addColumn name (.column (out.map .num)) with
          | .error e => .error e
          | .ok t => .ok (t, true)

/-- The argument of `filter_rows` after `np.asarray`: a boolean array, an integer array, or the untyped empty
list (whose dtype is float). -/
inductive RowSel
  | mask (m : List Bool)
  | index (l : List Int)
  | emptyList

/-- numpy index normalisation: negative indices count from the end. -/
def normIndex (n : Nat) (i : Int) : Option Nat :=
  if 0 ≤ i then (if i.toNat < n then some i.toNat else none)
  else if 0 ≤ i + n then some (i + n).toNat else none

/-- obs_table.py:464-465. -/
def setTrue : List Int → List Bool → Except Err (List Bool)
  | [], m => .ok m
  | i :: is, m => match normIndex m.length i with
    | none => .error .indexError
    | some k => setTrue is (m.set k true)

/-- obs_table.py:455-465: the mask. -/
def rowMask (n : Nat) : RowSel → Except Err (List Bool)
  | .mask m => if m.length ≠ n then .error .valueError else .ok m
  | .index l => setTrue l (List.replicate n false)
  | .emptyList => .error .indexError

/-- obs_table.py:440-472 `filter_rows`. -/
noncomputable def filterRows (t : ObsTable) (rows : RowSel) : Except Err ObsTable :=
  match rowMask t.len rows with
  | .error e => .error e
  | .ok m =>
    let cols : Dict Name (List Cell) := t.cols.map fun q => (q.1, gather m q.2)
    match buildTree cols with
    | .error e => .error e
    | .ok tree => .ok { t with cols := cols, labels := gather m t.labels, tree := tree }

/-- obs_table.py:428-438 `time_bounds` (`none` where pandas gives NaN for an empty column). -/
noncomputable def timeBounds (t : ObsTable) : Except Err (Option ℝ × Option ℝ) :=
  match numCol t.cols "time".toList with
  | .error e => .error e
  | .ok l => .ok (npMin l, npMax l)

/-! ### range_search -/

/-- The Euclidean distance. -/
noncomputable def dist3 (p q : ℝ × ℝ × ℝ) : ℝ :=
  √((p.1 - q.1) ^ 2 + (p.2.1 - q.2.1) ^ 2 + (p.2.2 - q.2.2) ^ 2)

open Classical in
/-- `KDTree.query_ball_point` for one query (contract, see above). -/
noncomputable def queryBall (tree : List (ℝ × ℝ × ℝ)) (q : ℝ × ℝ × ℝ) (r : ℝ) : List Nat :=
  (List.range tree.length).filter fun i => decide (dist3 (tree.getD i (0, 0, 0)) q ≤ r)

/-- A coordinate argument: None, a scalar, or an array (which may contain None). -/
inductive QArg
  | none
  | scalar (x : ℝ)
  | arr (l : List (Option ℝ))

/-- `np.isscalar`. -/
def QArg.isScalar : QArg → Bool
  | .scalar _ => true
  | _ => false

/-- `np.atleast_1d`. -/
def QArg.values : QArg → List (Option ℝ)
  | .none => []
  | .scalar x => [some x]
  | .arr l => l

/-- A time bound argument: None, a scalar or an array. -/
inductive TArg
  | none
  | scalar (x : ℝ)
  | arr (l : List ℝ)

def TArg.isNone : TArg → Bool
  | .none => true
  | _ => false

/-- obs_table.py:566-578: one bound per query, `none` for an infinite one. -/
def TArg.values (n : Nat) : TArg → Except Err (List (Option ℝ))
  | .none => .ok (List.replicate n Option.none)
  | .scalar x => if n = 1 then .ok [some x] else .error .valueError
  | .arr l => if l.length = n then .ok (l.map some) else .error .valueError

open Classical in
/-- `t >= lower`. -/
noncomputable def aboveBound : Option ℝ → ℝ → Bool
  | none, _ => true
  | some b, t => decide (b ≤ t)

open Classical in
/-- `t <= upper`. -/
noncomputable def belowBound : Option ℝ → ℝ → Bool
  | none, _ => true
  | some b, t => decide (t ≤ b)

/-- obs_table.py:582-586: filter the matches of each query by its own bounds. -/
noncomputable def timeFilter (times : List ℝ) : List (Option ℝ) → List (Option ℝ) → List (List Nat) → List (List Nat)
  | lo :: los, hi :: his, s :: rest =>
    (s.filter fun i => aboveBound lo (times.getD i 0) && belowBound hi (times.getD i 0)) :: timeFilter times los his rest
  | _, _, inds => inds

/-- obs_table.py:562-586. -/
noncomputable def timeStep (t : ObsTable) (tmin tmax : TArg) (inds : List (List Nat)) : Except Err (List (List Nat)) :=
  if tmin.isNone = true ∧ tmax.isNone = true then .ok inds
  else match numCol t.cols "time".toList with
    | .error e => .error e
    | .ok times => match tmin.values inds.length with
      | .error e => .error e
      | .ok los => match tmax.values inds.length with
        | .error e => .error e
        | .ok his => .ok (timeFilter times los his inds)

/-- obs_table.py:590-609: filter the matches of each query by the footprint. -/
noncomputable def footprintStep (t : ObsTable) (queries : List (ℝ × ℝ)) (inds : List (List Nat)) :
    Except Err (List (List Nat)) :=
  match t.footprint with
  | none => .ok inds
  | some fp =>
    match numCol t.cols "ra".toList with
    | .error e => .error e
    | .ok ras => match numCol t.cols "dec".toList with
      | .error e => .error e
      | .ok decs =>
        let rots : Except Err (Option (List ℝ)) :=
          if t.cols.has "rotation".toList then
            (match numCol t.cols "rotation".toList with
             | .error e => .error e
             | .ok l => .ok (some l))
          else .ok none
        match rots with
        | .error e => .error e
        | .ok rots => .ok (List.zipWith (fun (q : ℝ × ℝ) s =>
            s.filter fun i => fp q.1 q.2 (ras.getD i 0) (decs.getD i 0) (rots.map fun l => l.getD i 0)) queries inds)

/-- The result of `range_search`: one list for a scalar query, else one list per query. -/
inductive SearchOut
  | one (l : List Nat)
  | many (l : List (List Nat))

/-- obs_table.py:531-548: the query points. -/
def queryPoints (ra dec : QArg) : Except Err (List (ℝ × ℝ)) :=
  match ra, dec with
  | .none, _ => .error .valueError
  | _, .none => .error .valueError
  | ra, dec =>
    if ra.values.length ≠ dec.values.length then .error .valueError
    else match ra.values.mapM id, dec.values.mapM id with
      | some ras, some decs => .ok (ras.zip decs)
      | _, _ => .error .valueError

/-- obs_table.py:559. -/
noncomputable def chordRadius (radius : ℝ) : ℝ := 2 * sin ((radius * (π / 180)) / 2)

/-- obs_table.py:505-614 `range_search`. -/
noncomputable def rangeSearch (t : ObsTable) (ra dec : QArg) (radius : Option ℝ) (tmin tmax : TArg) :
    Except Err SearchOut :=
  match queryPoints ra dec with
  | .error e => .error e
  | .ok queries =>
    match (radius <|> t.radius) with
    | none => .error .valueError
    | some r =>
      let inds := queries.map fun q => queryBall t.tree (toCart q.1 q.2) (chordRadius r)
      match timeStep t tmin tmax inds with
      | .error e => .error e
      | .ok inds => match footprintStep t queries inds with
        | .error e => .error e
        | .ok inds =>
          if ra.isScalar = true ∧ dec.isScalar = true then .ok (.one (inds.headD []))
          else .ok (.many inds)

/-- The result of `is_observed`. -/
inductive SeenOut
  | one (b : Bool)
  | many (l : List Bool)

/-- obs_table.py:474-503 `is_observed`. -/
noncomputable def isObserved (t : ObsTable) (ra dec : QArg) (radius : Option ℝ) (tmin tmax : TArg) : Except Err SeenOut :=
  match t.rangeSearch ra dec radius tmin tmax with
  | .error e => .error e
  | .ok (.one l) => .ok (.one (decide (0 < l.length)))
  | .ok (.many l) =>
    if ra.isScalar then .ok (.one (decide (0 < l.length)))
    else .ok (.many (l.map fun s => decide (0 < s.length)))

/-! ### get_observations -/

/-- The entries of a pandas column whose label is `k`. -/
def atLabel (labels : List Int) (c : List Cell) (k : Int) : List Cell :=
  ((labels.zip c).filter fun p => decide (p.1 = k)).map (·.2)

/-- `series[keys]` for a list of integers on an integer index: selection by label, KeyError for a missing
one. -/
def loc (labels : List Int) (c : List Cell) : List Nat → Except Err (List Cell)
  | [] => .ok []
  | k :: ks => match atLabel labels c k with
    | [] => .error .keyError
    | v => match loc labels c ks with
      | .error e => .error e
      | .ok rest => .ok (v ++ rest)

/-- obs_table.py:652-657: the loop over the columns. -/
def extract (t : ObsTable) (neighbors : List Nat) : List Name → Except Err (Dict Name (List Cell))
  | [] => .ok []
  | c :: cs => match t.getItem c with
    | .error e => .error e
    | .ok col => match loc t.labels col neighbors with
      | .error e => .error e
      | .ok v => match extract t neighbors cs with
        | .error e => .error e
        | .ok rest => .ok ((c, v) :: rest)

/-- obs_table.py:616-658 `get_observations` for a single point; `cols` is None for all columns. (A list of
columns that names one twice gives one entry in the code; here it is listed twice.) -/
noncomputable def getObservations (t : ObsTable) (ra dec : ℝ) (radius : Option ℝ) (tmin tmax : TArg)
    (cols : Option (List Name)) : Except Err (Dict Name (List Cell)) :=
  match t.rangeSearch (.scalar ra) (.scalar dec) radius tmin tmax with
  | .error e => .error e
  | .ok (.many _) => .error .typeError
  | .ok (.one l) => extract t l (cols.getD t.cols.keys)

end ObsTable
end LCL
