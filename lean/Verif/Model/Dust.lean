import Verif.Model.NodeMore
import Mathlib.Data.Real.Basic
import Mathlib.Algebra.Order.Floor.Ring
import Mathlib.Data.Real.Archimedean

/-!
# Model of `src/lightcurvelynx/astro_utils/dustmap.py`

A dust map is an arbitrary function from sky coordinates (one position, or an array of them) to values, which may raise. `SkyCoord` in degrees wraps
the right ascension to `[0, 360)` and raises ValueError for a declination outside `[-90, 90]`; of its broadcasting only positions of equal shape are
modelled (what sampling gives). Numbers are real: NaN is not modelled. The sfdmap2 package itself is not modelled, only how `SFDMap` finds its files.
-/

namespace LCL.Dust
open LCL
variable {σ : Type}

/-- The positions of a `SkyCoord`. -/
inductive Coords
  | one (ra dec : ℝ)
  | many (l : List (ℝ × ℝ))

/-- A dust map's `query`. -/
abbrev DustMap := Coords → Except Err (Val ℝ)

/-- Longitudes are wrapped at 360 degrees. -/
noncomputable def wrap (ra : ℝ) : ℝ := ra - 360 * ⌊ra / 360⌋

/-- Latitudes outside [-90, 90] are refused. -/
noncomputable def skyOne (p : ℝ × ℝ) : Except Err (ℝ × ℝ) :=
  if -90 ≤ p.2 ∧ p.2 ≤ 90 then .ok (wrap p.1, p.2) else .error .valueError

/-- A number. -/
def number : Val ℝ → Except Err ℝ
  | .scalar x => .ok x
  | _ => .error .typeError

/-- dustmap.py:111 `SkyCoord(ra, dec, frame="icrs", unit="deg")`. -/
noncomputable def skyCoord : Val ℝ → Val ℝ → Except Err Coords
  | .scalar ra, .scalar dec => match skyOne (ra, dec) with
    | .error e => .error e
    | .ok p => .ok (.one p.1 p.2)
  | .arr ras, .arr decs => match ras.mapM number, decs.mapM number with
    | .ok ras, .ok decs => if ras.length = decs.length then
        match (ras.zip decs).mapM skyOne with
        | .error e => .error e
        | .ok l => .ok (.many l)
      else .error .valueError
    | _, _ => .error .typeError
  | _, _ => .error .typeError

/-- dustmap.py:92-117 `DustmapWrapper.compute_ebv`. -/
noncomputable def computeEbv (map : Option DustMap) (conv : Option (Val ℝ → Except Err (Val ℝ))) (ra dec : Val ℝ) : Except Err (Val ℝ) :=
  match map with
  | none => .error .valueError
  | some query => match skyCoord ra dec with
    | .error e => .error e
    | .ok c => match query c with
      | .error e => .error e
      | .ok v => match conv with
        | none => .ok v
        | some f => f v

/-- The node's function: called with the arguments `ra` and `dec`. -/
noncomputable def body (map : Option DustMap) (conv : Option (Val ℝ → Except Err (Val ℝ))) : σ → Nat → Dict Name (Val ℝ) → σ × Except Err (Val ℝ) :=
  fun w _ args => (w, match args.get? "ra".toList, args.get? "dec".toList with
    | some ra, some dec => computeEbv map conv ra dec
    | _, _ => .error .typeError)

/-- dustmap.py:49-54 `DustEBV.__init__`: ValueError unless both coordinates are given. -/
def initCheck (raGiven decGiven : Bool) : Option Err := if !raGiven || !decGiven then some .valueError else none

/-- dustmap.py:86-90: the node of a `DustmapWrapper` (its position in the graph and its setters are those of any function node). -/
noncomputable def node (label : Name) (setters : Dict Name (Setter ℝ)) (map : Option DustMap) (conv : Option (Val ℝ → Except Err (Val ℝ))) :
    PNode ℝ σ :=
  { cls := "DustmapWrapper".toList, label := some label, isFunc := true, funcName := some "compute_ebv".toList, body := some (body map conv),
    attrs := [], pos := none, str := label, setters := setters, argNames := ["ra".toList, "dec".toList], outputs := ["ebv".toList] }

/-- dustmap.py:154-155, 157: the value of one declination, by the scalar and by the array branch. -/
noncomputable def hemiScalar (north south dec : ℝ) : ℝ := if dec ≥ 0 then north else south
noncomputable def hemiArray (north south dec : ℝ) : ℝ := if dec < 0 then south else north

/-- dustmap.py:160-179 `ConstantHemisphereDustMap.query`, by `compute_ebv` (139-158): a single right ascension is a scalar. -/
noncomputable def hemisphere (north south : ℝ) : DustMap
  | .one _ dec => .ok (.scalar (hemiScalar north south dec))
  | .many l => .ok (.arr (l.map fun p => .scalar (hemiArray north south p.2)))

/-! ## The files of `SFDMap` -/

/-- What is on disk: both files in the data directory itself, both in its `sfddata-master`. -/
structure Disk where
  top : Bool
  sub : Bool

/-- dustmap.py:235-287 `_load_data`, when the package is installed: the disk afterwards, and the directory the map is read from (`true` for
`sfddata-master`) or the exception. `archive` tells whether the archive can be had (from the network or pooch's cache); it holds the files in
`sfddata-master`. -/
def loadData (archive : Bool) (d : Disk) : Disk × Except Err Bool :=
  if d.top then (d, .ok false)
  else if archive then ({ d with sub := true }, .ok true)
  else (d, .error .osError)

end LCL.Dust
