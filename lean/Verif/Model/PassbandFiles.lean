import Verif.Model.PassbandGroup

/-!
# Model of loading passbands (`src/lightcurvelynx/astro_utils/passbands.py`) and of downloads (`src/lightcurvelynx/utils/data_download.py`,
`src/lightcurvelynx/obstable/opsim.py` 119-146)

A disk is a map from absolute locations to contents. Contents are what the parsers give: `np.loadtxt` rows, a VOTable, or a csv table with a header; the text formats
themselves are not modelled, and a file given to the wrong parser raises ValueError. `pooch.retrieve` is modelled by its contract with `known_hash=None`: a file that
exists is returned as it is, and otherwise the URL is fetched (raising when that fails) and stored. Directories are not modelled except for the listing given to
`from_dir`.
-/

namespace LCL.PbFiles
open LCL

/-- A `pathlib.Path`. -/
structure FPath where
  abs : Bool
  parts : List Name
deriving DecidableEq

/-- `a / b` for paths. -/
def FPath.join (a b : FPath) : FPath := if b.abs then b else ⟨a.abs, a.parts ++ b.parts⟩

/-- The pieces of a string between the given character. -/
def splitAt (c : Char) : Name → List Name
  | [] => [[]]
  | x :: l => match splitAt c l with
    | [] => [[x]]
    | p :: ps => if x = c then [] :: p :: ps else (x :: p) :: ps

/-- `a / s` for a string without a leading slash (slashes separate parts, empty parts vanish). -/
def FPath.child (a : FPath) (s : Name) : FPath := ⟨a.abs, a.parts ++ (splitAt '/' s).filter (· ≠ [])⟩

/-- `path.name`. -/
def FPath.name (p : FPath) : Name := p.parts.getLastD []

/-- `s.rfind(".")`. -/
def lastDot : Name → Option Nat
  | [] => none
  | x :: l => match lastDot l with
    | some i => some (i + 1)
    | none => if x = '.' then some 0 else none

/-- `path.stem` of a file name. -/
def stem (n : Name) : Name :=
  match lastDot n with
  | some i => if 0 < i ∧ i + 1 < n.length then n.take i else n
  | none => n

/-- `path.suffix` of a file name. -/
def suffix (n : Name) : Name :=
  match lastDot n with
  | some i => if 0 < i ∧ i + 1 < n.length then n.drop i else []
  | none => []

/-- What the parsers find in a file. -/
inductive Content (K : Type)
  | text (rows : List (List K))
  | votable (fields : List (Name × Name)) (rows : List (List K))
  | csv (cols : Dict Name (List K))

/-- The files and the current directory. -/
structure Disk (K : Type) where
  files : Dict (List Name) (Content K)
  cwd : List Name

variable {K : Type} [Field K] [LinearOrder K]

/-- Where a path leads. -/
def Disk.loc (d : Disk K) (p : FPath) : List Name := if p.abs then p.parts else d.cwd ++ p.parts

/-- `path.exists()`. -/
def Disk.has (d : Disk K) (p : FPath) : Bool := d.files.has (d.loc p)

/-- What the network gives for a URL. -/
abbrev Net (K : Type) := Name → Option (Content K)

/-- `pooch.retrieve(url, known_hash=None, fname, path)`: an existing file is not downloaded again. -/
def retrieve (net : Net K) (d : Disk K) (p : FPath) (url : Name) : Except Err (Disk K) :=
  if d.has p then .ok d
  else match net url with
    | none => .error .osError
    | some c => .ok { d with files := d.files.set (d.loc p) c }

/-- data_download.py:11-53 `download_data_file_if_needed`. -/
def download (net : Net K) (d : Disk K) (p : FPath) (url : Option Name) (force : Bool) : Except Err (Bool × Disk K) :=
  if force = false ∧ d.has p = true then .ok (true, d)
  else match url with
    | none => .error .valueError
    | some [] => .error .valueError
    | some u => match retrieve net d p u with
      | .error e => .error e
      | .ok d' => .ok (d'.has p, d')

/-- A row of two numbers. -/
def toPair : List K → Option (K × K)
  | [w, t] => some (w, t)
  | _ => none

/-- passbands.py:979, 984-985: `np.loadtxt` (which squeezes one row or one column to one dimension) and the check of the shape. -/
def readText : List (List K) → Except Err (List (K × K))
  | [] => .error .valueError
  | [_] => .error .indexError
  | r :: rows =>
    if rows.any (fun x => decide (x.length ≠ r.length)) then .error .valueError
    else if r.length = 1 then .error .indexError
    else match (r :: rows).mapM toPair with
      | none => .error .valueError
      | some t => .ok t

/-- `str.lower` (ASCII). -/
def lower (n : Name) : Name := n.map Char.toLower

/-- passbands.py:965-972: the units a VOTable states. -/
def votUnit (u : Name) : Except Err String :=
  if lower u ∈ ["nm".toList, "nanometers".toList, "namo".toList, "nanometer".toList] then .ok "nm"
  else if lower u ∈ ["a".toList, "aa".toList, "angstrom".toList, "angstroms".toList] then .ok "A"
  else .error .valueError

/-- passbands.py:952-972 and 984-985: a VOTable with two columns, the first one wavelengths. -/
def readVot (fields : List (Name × Name)) (rows : List (List K)) : Except Err (List (K × K) × String) :=
  match fields with
  | [f, _] =>
    if "wave".toList.isPrefixOf (lower f.1) then
      match rows.mapM toPair with
      | none => .error .valueError
      | some t => match votUnit f.2 with
        | .error e => .error e
        | .ok u => if t = [] then .error .valueError else .ok (t, u)
    else .error .valueError
  | _ => .error .valueError

/-- passbands.py:950-981: reading by the suffix of the file; the units are those of the VOTable, or those given. -/
def readTable (name : Name) (c : Content K) (units : String) : Except Err (List (K × K) × String) :=
  if suffix name ∈ [".xml".toList, ".vot".toList, ".votable".toList] then
    match c with
    | .votable fields rows => readVot fields rows
    | _ => .error .valueError
  else if suffix name ∈ [".csv".toList, ".ecsv".toList, ".txt".toList, ".dat".toList] then
    match c with
    | .text rows => match readText rows with
      | .error e => .error e
      | .ok t => .ok (t, units)
    | _ => .error .valueError
  else .error .valueError

/-- passbands.py:987-991: conversion to Angstroms. -/
def convert (t : List (K × K)) (units : String) : Except Err (List (K × K)) :=
  if units = "nm" then .ok (t.map fun p => (p.1 * 10, p.2))
  else if units = "A" then .ok t
  else .error .valueError

/-- passbands.py:993-1002: increasing wavelengths; duplicates reach `dup_inds + 1` with a tuple and raise TypeError. -/
def increasing (t : List (K × K)) : Except Err (List (K × K)) :=
  if (npDiff (t.map (·.1))).any (fun g => decide (g < 0)) then .error .valueError
  else if (npDiff (t.map (·.1))).any (fun g => decide (g = 0)) then .error .typeError
  else .ok t

/-- passbands.py:918-1004 `load_transmission_table`. -/
def loadTable (d : Disk K) (p : FPath) (units : String) : Except Err (List (K × K)) :=
  match d.files.get? (d.loc p) with
  | none => .error .fileNotFound
  | some c => match readTable p.name c units with
    | .error e => .error e
    | .ok (t, u) => match convert t u with
      | .error e => .error e
      | .ok t => increasing t

/-- The arguments of `Passband.from_file` beside survey and filter: passbands.py:740-750 (with their defaults). -/
structure FileArgs (K : Type) where
  delta : Option K
  trim : Option K
  path : Option FPath := none
  url : Option Name := none
  units : String := "A"
  force : Bool := false

/-- passbands.py:783-790: the path used. -/
def tablePath (base : FPath) (survey filter : Name) : Option FPath → FPath
  | some p => p
  | none => ((base.child "passbands".toList).child survey).child (filter ++ ".dat".toList)

/-- passbands.py:739-806 `Passband.from_file`. -/
noncomputable def fromFile [FloorRing K] (net : Net K) (base : FPath) (d : Disk K) (survey filter : Name) (a : FileArgs K) :
    Except Err (Passband K × Disk K) :=
  let p := tablePath base survey filter a.path
  match download net d p a.url a.force with
  | .error e => .error e
  | .ok (false, _) => .error .runtimeError
  | .ok (true, d) => match loadTable d p a.units with
    | .error e => .error e
    | .ok t => match Passband.init t survey filter a.delta a.trim "A" with
      | .error e => .error e
      | .ok pb => .ok (pb, d)

/-- passbands.py:852-915 `Passband.from_svo` (`units` stands for the only keyword argument that `from_file` accepts beside those named). -/
noncomputable def fromSvo [FloorRing K] (net : Net K) (base : FPath) (d : Disk K) (full : Name) (delta trim : Option K) (dir : Option FPath)
    (force : Bool) (units : String) : Except Err (Passband K × Disk K) :=
  match splitAt '.' full with
  | [survey, filter] =>
    let dir := ((dir.getD (base.child "passbands".toList)).child survey)
    fromFile net base d survey filter
      { delta := delta, trim := trim, path := some (dir.child (filter ++ ".xml".toList)),
        url := some ("https://svo2.cab.inta-csic.es/svo/theory/fps3/fps.php?ID=".toList ++ full), units := units, force := force }
  | _ => .error .valueError

/-! ### Groups -/

/-- The parameters of a passband given as a dictionary; a missing entry is `none` (unknown names, which raise TypeError, are not modelled). -/
structure PbParams (K : Type) where
  survey : Option Name := none
  filter : Option Name := none
  delta : Option (Option K) := none
  trim : Option (Option K) := none
  path : Option (Option FPath) := none
  url : Option (Option Name) := none
  units : Option String := none
  force : Option Bool := none

/-- passbands.py:96-99: missing parameters are taken from the keyword arguments of the group. -/
def PbParams.fill (p kw : PbParams K) : PbParams K where
  survey := p.survey <|> kw.survey
  filter := p.filter <|> kw.filter
  delta := p.delta <|> kw.delta
  trim := p.trim <|> kw.trim
  path := p.path <|> kw.path
  url := p.url <|> kw.url
  units := p.units <|> kw.units
  force := p.force <|> kw.force

/-- passbands.py:101: `Passband.from_file(**params)` with the defaults of 740-750. -/
noncomputable def fromParams [FloorRing K] (net : Net K) (base : FPath) (d : Disk K) (p : PbParams K) : Except Err (Passband K × Disk K) :=
  match p.survey, p.filter with
  | some survey, some filter =>
    fromFile net base d survey filter
      { delta := p.delta.getD (some 5), trim := p.trim.getD (some (1 / 1000)), path := p.path.getD none, url := p.url.getD none,
        units := p.units.getD "A", force := p.force.getD false }
  | _, _ => .error .typeError

/-- A passband given to `PassbandGroup`. -/
inductive Given (K : Type)
  | obj (pb : Passband K)
  | params (p : PbParams K)

/-- passbands.py:88-102: the passbands in order, loading those given by parameters. -/
noncomputable def loadAll [FloorRing K] (net : Net K) (base : FPath) (kw : PbParams K) : Disk K → List (Given K) → Except Err (List (Passband K) × Disk K)
  | d, [] => .ok ([], d)
  | d, .obj pb :: l => match loadAll net base kw d l with
    | .error e => .error e
    | .ok (pbs, d) => .ok (pb :: pbs, d)
  | d, .params p :: l => match fromParams net base d (p.fill kw) with
    | .error e => .error e
    | .ok (pb, d) => match loadAll net base kw d l with
      | .error e => .error e
      | .ok (pbs, d) => .ok (pb :: pbs, d)

/-- passbands.py:49-126 `PassbandGroup.__init__`. -/
noncomputable def groupInit [FloorRing K] (net : Net K) (base : FPath) (d : Disk K) (given : List (Given K)) (filters : Option (List Name)) (kw : PbParams K) :
    Except Err (PassbandGroup K × Disk K) :=
  if given.isEmpty then .error .valueError
  else match loadAll net base kw d given with
    | .error e => .error e
    | .ok (pbs, d) => match PassbandGroup.init pbs filters with
      | .error e => .error e
      | .ok g => .ok (g, d)

/-- passbands.py:213-222: one directory entry (whose path `iterdir` has already joined to the directory) as parameters. -/
def dirParams (dir : FPath) (delta trim : Option K) (units : String) (entry : Name) : Given K :=
  .params { survey := some dir.name, filter := some (stem entry), delta := some delta, trim := some trim,
            path := some (some (dir.join (FPath.mk dir.abs (dir.parts ++ [entry])))), units := some units }

/-- passbands.py:209-213: whether a directory entry is used. -/
def wanted (d : Disk K) (dir : FPath) (filters : Option (List Name)) (e : Name) : Bool :=
  d.has (FPath.mk dir.abs (dir.parts ++ [e])) && (match filters with
    | none => true
    | some fs => decide (stem e ∈ fs))

/-- passbands.py:169-224 `PassbandGroup.from_dir`; `listing` is what `iterdir` gives (`none`: not a directory), in any order. -/
noncomputable def fromDir [FloorRing K] (net : Net K) (base : FPath) (d : Disk K) (dir : FPath) (listing : Option (List Name)) (filters : Option (List Name))
    (delta trim : Option K) (units : String) : Except Err (PassbandGroup K × Disk K) :=
  match listing with
  | none => .error .valueError
  | some entries =>
    groupInit net base d ((entries.filter (wanted d dir filters)).map (dirParams dir delta trim units)) filters {}

/-- The keyword arguments of `from_preset`; `none`: not given. -/
structure PresetKw (K : Type) where
  delta : Option (Option K) := none
  trim : Option (Option K) := none
  units : Option String := none
  force : Option Bool := none

/-- passbands.py:303-312: the loop over the LSST filters. -/
noncomputable def loadLsst [FloorRing K] (net : Net K) (base dir : FPath) (kw : PresetKw K) : Disk K → List Name → Except Err (List (Passband K) × Disk K)
  | d, [] => .ok ([], d)
  | d, f :: fs =>
    match fromFile net base d "LSST".toList f
      { delta := kw.delta.getD (some 5), trim := kw.trim.getD (some (1 / 1000)),
        path := some ((dir.child "LSST".toList).child (f ++ ".dat".toList)),
        url := some ("https://github.com/lsst/throughputs/blob/main/baseline/total_".toList ++ f ++ ".dat?raw=true".toList),
        units := "nm", force := kw.force.getD false } with
    | .error e => .error e
    | .ok (pb, d) => match loadLsst net base dir kw d fs with
      | .error e => .error e
      | .ok (pbs, d) => .ok (pb :: pbs, d)

/-- passbands.py:271-313 `_lsst_load_preset`. -/
noncomputable def lsstPreset [FloorRing K] (net : Net K) (base : FPath) (d : Disk K) (dir : FPath) (kw : PresetKw K) : Except Err (List (Passband K) × Disk K) :=
  if kw.units.getD "nm" = "nm" then loadLsst net base dir kw d (["u", "g", "r", "i", "z", "y"].map String.toList) else .error .valueError

/-- passbands.py:808-849 `Passband.from_sncosmo` by the name of a registered bandpass (an unknown name raises). All keyword arguments are ignored. -/
noncomputable def fromSncosmo [FloorRing K] (registry : Name → Option (List (K × K))) (survey filter bandpass : Name) : Except Err (Passband K) :=
  match registry bandpass with
  | none => .error .valueError
  | some t => Passband.init t survey filter (some 5) none "A"

/-- passbands.py:256-260: the ZTF preset. -/
noncomputable def ztfPreset [FloorRing K] (registry : Name → Option (List (K × K))) : Except Err (List (Passband K)) :=
  (["g", "r", "i"].map String.toList).mapM fun f => fromSncosmo registry "ZTF".toList f ("ztf".toList ++ f)

/-- passbands.py:364-368: one Roman filter. `Passband` has no parameter `force_download` (TypeError). -/
noncomputable def romanBand [FloorRing K] (kw : PresetKw K) (cols : Dict Name (List K)) (f : Name) : Except Err (Passband K) :=
  match cols.get? "Wave".toList, cols.get? f with
  | some waves, some eff =>
    if kw.force.isSome then .error .typeError
    else Passband.init ((waves.map (· * 10000)).zip eff) "Roman".toList f (kw.delta.getD (some 5)) (kw.trim.getD (some (1 / 1000))) (kw.units.getD "A")
  | _, _ => .error .keyError

/-- passbands.py:317-369 `_roman_load_preset`. -/
noncomputable def romanPreset [FloorRing K] (net : Net K) (d : Disk K) (dir : FPath) (kw : PresetKw K) : Except Err (List (Passband K) × Disk K) :=
  if kw.units.getD "micron" = "micron" then
    let p := (dir.child "Roman".toList).child "roman_wfi_filters.ecsv".toList
    match download net d p (some "https://github.com/RomanSpaceTelescope/roman-technical-information/blob/main/data/WideFieldInstrument/Imaging/EffectiveAreas/Roman_effarea_v8_SCA01_20240301.ecsv?raw=true".toList) (kw.force.getD false) with
    | .error e => .error e
    | .ok (false, _) => .error .runtimeError
    | .ok (true, d) => match d.files.get? (d.loc p) with
      | some (.csv cols) =>
        match (["F062", "F087", "F106", "F129", "F146", "F158", "F184", "F213"].map String.toList).mapM (romanBand kw cols) with
        | .error e => .error e
        | .ok pbs => .ok (pbs, d)
      | _ => .error .keyError
  else .error .valueError

/-- passbands.py:253-264: the passbands of a preset. -/
noncomputable def presetBands [FloorRing K] (net : Net K) (registry : Name → Option (List (K × K))) (base : FPath) (d : Disk K) (preset : Name) (dir : FPath)
    (kw : PresetKw K) : Except Err (List (Passband K) × Disk K) :=
  if lower preset = "lsst".toList then lsstPreset net base d dir kw
  else if lower preset = "ztf".toList then
    match ztfPreset registry with
    | .error e => .error e
    | .ok pbs => .ok (pbs, d)
  else if lower preset = "roman".toList then romanPreset net d dir kw
  else .error .valueError

/-- passbands.py:227-267 `PassbandGroup.from_preset`. -/
noncomputable def fromPreset [FloorRing K] (net : Net K) (registry : Name → Option (List (K × K))) (base : FPath) (d : Disk K) (preset : Name)
    (dir : Option FPath) (filters : Option (List Name)) (kw : PresetKw K) : Except Err (PassbandGroup K × Disk K) :=
  match presetBands net registry base d preset (dir.getD (base.child "passbands".toList)) kw with
  | .error e => .error e
  | .ok (pbs, d) => match PassbandGroup.init pbs filters with
    | .error e => .error e
    | .ok g => .ok (g, d)

/-- opsim.py:119-146 `OpSim.from_url`: the file that is read and the disk afterwards (reading it is `from_db`, Model/Persist.lean). -/
def opsimFile (net : Net K) (base : FPath) (d : Disk K) (url : Name) (force : Bool) : Except Err (FPath × Disk K) :=
  let p := (base.child "opsim".toList).child ((splitAt '/' url).getLastD [])
  match download net d p (some url) force with
  | .error e => .error e
  | .ok (false, _) => .error .runtimeError
  | .ok (true, d) => .ok (p, d)

end LCL.PbFiles
