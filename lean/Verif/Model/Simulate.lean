import Verif.Model.ObsTable

/-!
# Model of `src/lightcurvelynx/simulate.py`

The sampled states are given as the list of their single-sample states (`for state in sample_states`); the
sampling itself is modelled in `Model/Nodes.lean`. The model being simulated enters through two functions:
its `evaluate_bandfluxes` for the passbands of each survey (modelled in `Model/Physical.lean`) and its
`mask_by_time`. `R` is the state of all random number generators. The final `NestedFrame.add_nested` groups
the rows of the nested table by their index; a nested table whose columns differ in length raises ValueError
(`pd.DataFrame`).
-/

namespace LCL

/-- The argument `t0` of `get_time_windows`: None, a scalar or an array (which may hold None). -/
inductive T0Arg
  | none
  | scalar (x : ℝ)
  | arr (l : List (Option ℝ))

/-- simulate.py:45-46: one side of the window; `op` subtracts or adds the offset. -/
def windowSide (op : ℝ → ℝ) (t0 : List (Option ℝ)) : Except Err (List ℝ) :=
  match t0.mapM id with
  | some l => .ok (l.map op)
  | none => .error .typeError

/-- simulate.py:45 or 46 with its `if ... is not None`: `op offset` is the operation applied to t0. -/
def windowBound (op : ℝ → ℝ → ℝ) (l : List (Option ℝ)) : Option ℝ → Except Err ObsTable.TArg
  | none => .ok .none
  | some b => match windowSide (fun t => op t b) l with
    | .error e => .error e
    | .ok l => .ok (.arr l)

/-- simulate.py:38-48, with t0 made an array. -/
def windowPair (l : List (Option ℝ)) : List (Option ℝ) → Except Err (ObsTable.TArg × ObsTable.TArg)
  | [before, after] => match windowBound (· - ·) l before with
    | .error e => .error e
    | .ok s => match windowBound (· + ·) l after with
      | .error e => .error e
      | .ok t => .ok (s, t)
  | _ => .error .valueError

/-- simulate.py:12-48 `get_time_windows`. The offset is None or a sequence of numbers and Nones. -/
def getTimeWindows (t0 : T0Arg) (offset : Option (List (Option ℝ))) :
    Except Err (ObsTable.TArg × ObsTable.TArg) :=
  match offset with
  | none => .ok (.none, .none)
  | some o => match t0 with
    | .none => .ok (.none, .none)
    | .scalar x => windowPair [some x] o
    | .arr l => windowPair l o

/-- The part of a sampled state that the simulation reads. -/
structure SimState where
  state : SState ℝ
  ra : Option ℝ
  dec : Option ℝ
  t0 : Option ℝ

/-- `model.get_param(sample_states, "t0")`: a scalar (or None) for one sample, an array for several. -/
def t0Of : List SimState → T0Arg
  | [s] => match s.t0 with
    | none => .none
    | some x => .scalar x
  | l => .arr (l.map (·.t0))

/-- A survey: the table, the model's `evaluate_bandfluxes` with the survey's passbands, and the table's
`bandflux_error_point_source`. -/
structure Survey (R : Type) where
  table : ObsTable
  eval : List ℝ → List Name → SState ℝ → R → Except Err (List ℝ × R)
  error : List ℝ → List Nat → Except Err (List ℝ)

/-- A cell of the nested table. -/
inductive NCell
  | num (x : ℝ)
  | text (s : Name)
  | survey (i : Nat)
  | cell (c : Cell)
  | missing

/-- The nested table under construction: columns and the index. -/
structure Nested where
  cols : Dict Name (List NCell)
  index : List Nat

/-- `nested_dict[key].extend(values)`. -/
def extend (d : Dict Name (List NCell)) (key : Name) (values : List NCell) : Dict Name (List NCell) :=
  d.set key ((d.get? key).getD [] ++ values)

/-- The columns every lightcurve has: simulate.py:153. -/
def baseCols : List Name :=
  ["mjd".toList, "filter".toList, "flux".toList, "fluxerr".toList, "flux_perfect".toList, "survey_idx".toList]

/-- simulate.py:152-157. -/
def emptyNested (saveCols : List Name) : Nested :=
  { cols := saveCols.foldl (fun (d : Dict Name (List NCell)) c => Dict.set d c []) (baseCols.map fun c => (c, []))
    index := [] }

/-- simulate.py:169-170: a column as numbers or as strings. Simplification: the code casts (`dtype=str` turns a number into its text, `dtype=float` the text of a number
into the number); the model raises instead. -/
def textCol (t : ObsTable) : Except Err (List Name) :=
  match t.getItem "filter".toList with
  | .error e => .error e
  | .ok c => c.mapM Cell.str?

def timeCol (t : ObsTable) : Except Err (List ℝ) :=
  match t.getItem "time".toList with
  | .error e => .error e
  | .ok c => c.mapM Cell.num?

/-- simulate.py:179: `np.asarray` of the matches. It is an array of floats (`untyped`) exactly when the kd-tree
returned an empty list, which range_search leaves as it is (obs_table.py:583-584 and 598-599). -/
structure ObsIndex where
  rows : List Nat
  untyped : Bool

/-- simulate.py:211-215: the values of a saved column. -/
def savedCol (t : ObsTable) (oi : ObsIndex) (nobs : Nat) (col : Name) : Except Err (List NCell) :=
  if t.contains col then
    match t.getItem col with
    | .error e => .error e
    | .ok c => if oi.untyped then .error .indexError else
      match oi.rows.mapM (fun i => c[i]?) with
      | some l => .ok (l.map .cell)
      | none => .error .indexError
  else .ok (List.replicate nobs .missing)

/-- simulate.py:210-216: the loop over the saved columns. -/
def saveAll (t : ObsTable) (oi : ObsIndex) (nobs : Nat) : List Name → Dict Name (List NCell) →
    Except Err (Dict Name (List NCell))
  | [], d => .ok d
  | c :: cs, d => match savedCol t oi nobs c with
    | .error e => .error e
    | .ok l => saveAll t oi nobs cs (extend d c l)

/-- simulate.py:179-192: the rows used, their times and their filters. -/
def selectObs (mask : Option (List ℝ → SState ℝ → List Bool)) (times : List ℝ) (filters : List Name) (st : SState ℝ)
    (oi : ObsIndex) : Except Err (ObsIndex × List ℝ × List Name) :=
  if oi.rows.length = 0 then .ok (oi, [], [])
  else match oi.rows.mapM (fun i => times[i]?) with
    | none => .error .indexError
    | some ts =>
      let sel : List Nat × List ℝ := match mask with
        | none => (oi.rows, ts)
        | some f => (gather (f ts st) oi.rows, gather (f ts st) ts)
      match sel.1.mapM (fun i => filters[i]?) with
      | none => .error .indexError
      | some fs => .ok ({ rows := sel.1, untyped := oi.untyped }, sel.2, fs)

/-- simulate.py:177-219: one object and one survey. -/
def simulateOne {R : Type} (noise : List ℝ → List ℝ → R → Except Err (List ℝ × R))
    (mask : Option (List ℝ → SState ℝ → List Bool)) (saveCols : List Name) (idx surveyIdx : Nat) (st : SState ℝ)
    (s : Survey R) (times : List ℝ) (filters : List Name) (oi : ObsIndex) (nd : Nested) (r : R) :
    Except Err (Nested × Nat × R) :=
  match selectObs mask times filters st oi with
  | .error e => .error e
  | .ok (oi, ts, fs) =>
    match s.eval ts fs st r with
    | .error e => .error e
    | .ok (perfect, r) =>
      match s.error perfect oi.rows with
      | .error e => .error e
      | .ok err =>
        match noise perfect err r with
        | .error e => .error e
        | .ok (flux, r) =>
          let d := nd.cols
          let d := extend d "mjd".toList (ts.map .num)
          let d := extend d "filter".toList (fs.map .text)
          let d := extend d "flux_perfect".toList (perfect.map .num)
          let d := extend d "flux".toList (flux.map .num)
          let d := extend d "fluxerr".toList (err.map .num)
          let d := extend d "survey_idx".toList (List.replicate ts.length (.survey surveyIdx))
          match saveAll s.table oi ts.length saveCols d with
          | .error e => .error e
          | .ok d => .ok ({ cols := d, index := nd.index ++ List.replicate ts.length idx }, ts.length, r)

/-- What is known of a survey before the loops: simulate.py:164-170. -/
structure Prepared (R : Type) where
  survey : Survey R
  times : List ℝ
  filters : List Name
  matched : List ObsIndex

/-- simulate.py:177-219: the loop over the surveys for one object. -/
def simulateSurveys {R : Type} (noise : List ℝ → List ℝ → R → Except Err (List ℝ × R))
    (mask : Option (List ℝ → SState ℝ → List Bool)) (saveCols : List Name) (idx : Nat) (st : SState ℝ) :
    Nat → List (Prepared R) → Nat → Nested → R → Except Err (Nested × Nat × R)
  | _, [], total, nd, r => .ok (nd, total, r)
  | k, p :: ps, total, nd, r => match p.matched[idx]? with
    | none => .error .indexError
    | some oi => match simulateOne noise mask saveCols idx k st p.survey p.times p.filters oi nd r with
      | .error e => .error e
      | .ok (nd, n, r) => simulateSurveys noise mask saveCols idx st (k + 1) ps (total + n) nd r

/-- simulate.py:174-222: the loop over the objects; gives the nested table and the list of nobs. -/
def simulateObjects {R : Type} (noise : List ℝ → List ℝ → R → Except Err (List ℝ × R))
    (mask : Option (List ℝ → SState ℝ → List Bool)) (saveCols : List Name) (ps : List (Prepared R)) :
    Nat → List SimState → Nested → R → Except Err (Nested × List Nat × R)
  | _, [], nd, r => .ok (nd, [], r)
  | idx, s :: ss, nd, r => match simulateSurveys noise mask saveCols idx s.state 0 ps 0 nd r with
    | .error e => .error e
    | .ok (nd, n, r) => match simulateObjects noise mask saveCols ps (idx + 1) ss nd r with
      | .error e => .error e
      | .ok (nd, ns, r) => .ok (nd, n :: ns, r)

/-- simulate.py:165: range_search with the sampled positions, and whether the kd-tree found nothing. -/
noncomputable def searchAll (t : ObsTable) (states : List SimState) (tmin tmax : ObsTable.TArg) : Except Err (List ObsIndex) :=
  match t.rangeSearch (.arr (states.map (·.ra))) (.arr (states.map (·.dec))) none tmin tmax with
  | .error e => .error e
  | .ok (.one _) => .error .typeError
  | .ok (.many l) => match t.radius with
    | none => .error .valueError
    | some rad => .ok (List.zipWith (fun (s : SimState) rows => { rows := rows, untyped := match s.ra, s.dec with
        | some ra, some dec => (ObsTable.queryBall t.tree (ObsTable.toCart ra dec) (ObsTable.chordRadius rad)).isEmpty
        | _, _ => false }) states l)

/-- simulate.py:164-170 for one survey. -/
noncomputable def prepare {R : Type} (states : List SimState) (tmin tmax : ObsTable.TArg) (s : Survey R) :
    Except Err (Prepared R) :=
  match searchAll s.table states tmin tmax with
  | .error e => .error e
  | .ok m => match timeCol s.table with
    | .error e => .error e
    | .ok times => match textCol s.table with
      | .error e => .error e
      | .ok filters => .ok { survey := s, times := times, filters := filters, matched := m }

/-- The result: id, ra, dec and nobs of every object, and the nested rows. -/
structure SimResult where
  ids : List Nat
  ra : List (Option ℝ)
  dec : List (Option ℝ)
  nobs : List Nat
  nested : Nested

/-- simulate.py:224-227: `pd.DataFrame` raises ValueError unless all columns are as long as the index. -/
def checkNested (nd : Nested) : Except Err Nested :=
  if nd.cols.all fun q => q.2.length == nd.index.length then .ok nd else .error .valueError

/-- simulate.py:106-238 `simulate_lightcurves`, after sampling (`isBand`: the model is a BandfluxModel;
`numPassbands`: the number of passband groups given). Extra parameter columns are not modelled. -/
noncomputable def simulateLightcurves {R : Type} (noise : List ℝ → List ℝ → R → Except Err (List ℝ × R)) (isBand : Bool)
    (states : List SimState) (surveys : List (Survey R)) (numPassbands : Nat) (saveCols : List Name)
    (mask : Option (List ℝ → SState ℝ → List Bool)) (offset : Option (List (Option ℝ))) (r : R) :
    Except Err (SimResult × R) :=
  if states.length = 0 then .error .valueError
  else if surveys.length ≠ numPassbands then .error .valueError
  else if 1 < surveys.length ∧ isBand = true then .error .valueError
  else match getTimeWindows (t0Of states) offset with
    | .error e => .error e
    | .ok (tmin, tmax) => match surveys.mapM (prepare states tmin tmax) with
      | .error e => .error e
      | .ok ps => match simulateObjects noise mask saveCols ps 0 states (emptyNested saveCols) r with
        | .error e => .error e
        | .ok (nd, ns, r) => match checkNested nd with
          | .error e => .error e
          | .ok nd => .ok ({ ids := List.range states.length, ra := states.map (·.ra), dec := states.map (·.dec),
                             nobs := ns, nested := nd }, r)

/-- `add_nested`: the rows of a column whose index is `k`, in order. -/
def lightcurve (nd : Nested) (k : Nat) (col : Name) : List NCell :=
  ((nd.index.zip ((nd.cols.get? col).getD [])).filter fun p => decide (p.1 = k)).map (·.2)

end LCL
