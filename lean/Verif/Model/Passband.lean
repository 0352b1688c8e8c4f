import Verif.Base.Py
import Verif.Base.Interp
import Mathlib.Algebra.Order.Floor.Defs

/-!
# Model of `Passband` (`src/lightcurvelynx/astro_utils/passbands.py`, 637-1215)

Transmission tables are lists of `(wavelength, transmission)` rows over an arbitrary linearly ordered
field with a floor function (exact arithmetic). Tables with a number of columns other than two are
not represented.
-/

namespace LCL
variable {K : Type} [Field K] [LinearOrder K]

/-! ## numpy / scipy substrate -/

/-- `np.diff`. -/
def npDiff : List K → List K
  | a :: b :: l => (b - a) :: npDiff (b :: l)
  | _ => []

/-- The trapezoids between consecutive points `(x, y)`. -/
def trapCells : List (K × K) → List K
  | p :: q :: l => (q.1 - p.1) * (q.2 + p.2) / 2 :: trapCells (q :: l)
  | _ => []

/-- `scipy.integrate.trapezoid(y, x=x)`. -/
def trapezoid (l : List (K × K)) : K := (trapCells l).sum

/-- `scipy.integrate.cumulative_trapezoid(y, x=x)`. -/
def cumTrapezoid (l : List (K × K)) : List K := cumsum (trapCells l)

/-- `np.linspace(lo, hi, n)`. -/
def linspace (lo hi : K) (n : Nat) : List K :=
  (List.range n).map fun (i : Nat) => lo + (i : K) * ((hi - lo) / ((n - 1 : Nat) : K))

/-- One comparison of `np.allclose(a, b)` with the default tolerances. -/
def isClose (a b : K) : Prop := |a - b| ≤ 1 / 10 ^ 8 + 1 / 10 ^ 5 * |b|

instance (a b : K) : Decidable (isClose a b) := by unfold isClose; infer_instance

/-- Python `int(x)`: truncation towards zero. -/
def pyInt [FloorRing K] (x : K) : Int := if 0 ≤ x then ⌊x⌋ else ⌈x⌉

/-! ## The passband -/

/-- passbands.py:637-720: the attributes of a `Passband`. -/
structure Passband (K : Type) where
  fullName : Name
  filterName : Name
  loaded : List (K × K)
  table : List (K × K)
  waves : List K
  deltaWave : Option K

/-- passbands.py:1028-1059 `_interpolate_transmission_table`. `delta_wave = 0` makes numpy divide by
zero (infinity, whose `int` overflows); a negative `delta_wave` gives a non-positive number of points:
`np.linspace` rejects a negative one. -/
noncomputable def Passband.interpolate [FloorRing K] (t : List (K × K)) (delta : Option K) : Except Err (List (K × K)) :=
  match delta with
  | none => .ok t
  | some d =>
    if (npDiff (t.map (·.1))).all (fun g => decide (isClose g d)) then .ok t
    else
      let lo := (t.map (·.1)).headD 0
      let hi := (t.map (·.1)).getLastD 0
      if d = 0 then .error .overflowError
      else
        let n := pyInt ((hi - lo) / d) + 1
        if n < 0 then .error .valueError
        else .ok ((linspace lo hi n.toNat).map fun w => (w, interpAt (t.map (·.1)) (t.map (·.2)) w))

/-- passbands.py:1061-1103 `_trim_transmission_by_quantile`. A zero total area (for non-negative
transmissions every cumulative value is then `0/0`, NaN, the trimmed table has one row and
normalisation rejects it with ValueError) is rejected here with that error. -/
noncomputable def Passband.trim (t : List (K × K)) (quantile : Option K) : Except Err (List (K × K)) :=
  match quantile with
  | none => .ok t
  | some q =>
    if q = 0 then .ok t
    else if q < 0 ∨ 1 / 2 ≤ q then .error .valueError
    else if t = [] then .error .valueError
    else match (cumTrapezoid t).getLast? with
      | none => .error .indexError
      | some total =>
        if total = 0 then .error .valueError
        else
          let c := (cumTrapezoid t).map (· / total)
          let lower := searchRight c q - 1
          let upper := searchLeft c (1 - q)
          .ok ((t.take (upper + 1)).drop lower)

/-- passbands.py:1105-1152 `_normalize_transmission_table`. The zero-denominator branch formats the
missing attribute `_wave_grid` and so raises AttributeError. -/
noncomputable def Passband.normalize (t : List (K × K)) : Except Err (List (K × K)) :=
  if t.length ≤ 1 then .error .valueError
  else
    let numer := t.map fun p => (p.1, p.2 / p.1)
    let den := trapezoid numer
    if den = 0 then .error .attributeError
    else .ok (numer.map fun p => (p.1, p.2 / den))

/-- passbands.py:1006-1026 `process_transmission_table`, on the loaded table. -/
noncomputable def Passband.process [FloorRing K] (t : List (K × K)) (delta trim : Option K) :
    Except Err (List (K × K)) :=
  match Passband.interpolate t delta with
  | .error e => .error e
  | .ok t1 => match Passband.trim t1 trim with
    | .error e => .error e
    | .ok t2 => Passband.normalize t2

/-- passbands.py:699-710: validation. Duplicate wavelengths reach `dup_inds + 1` with `dup_inds` a
tuple and raise TypeError. -/
def Passband.validate (t : List (K × K)) : Except Err (List (K × K)) :=
  if (npDiff (t.map (·.1))).any (fun g => decide (g < 0)) then .error .valueError
  else if (npDiff (t.map (·.1))).any (fun g => decide (g = 0)) then .error .typeError
  else .ok t

/-- passbands.py:712-717: conversion to Angstroms. -/
def Passband.toAngstrom (t : List (K × K)) (units : String) : Except Err (List (K × K)) :=
  if units = "nm" then .ok (t.map fun p => (p.1 * 10, p.2))
  else if units = "A" then .ok t
  else .error .valueError

/-- passbands.py:662-720 `Passband.__init__`. -/
noncomputable def Passband.init [FloorRing K] (t : List (K × K)) (survey filterName : Name) (delta trim : Option K)
    (units : String) : Except Err (Passband K) :=
  match Passband.validate t with
  | .error e => .error e
  | .ok t0 => match Passband.toAngstrom t0 units with
    | .error e => .error e
    | .ok t1 => match Passband.process t1 delta trim with
      | .error e => .error e
      | .ok t2 => .ok { fullName := survey ++ '_' :: filterName, filterName := filterName, loaded := t1, table := t2,
                        waves := t2.map (·.1), deltaWave := delta }

/-- passbands.py:1205-1214: the bandflux of one spectrum given on the passband's grid. -/
def Passband.integrate (pb : Passband K) (flux : List K) : K :=
  let integrand := List.zipWith (· * ·) flux (pb.table.map (·.2))
  match pb.deltaWave with
  | some d => (integrand.sum - 1 / 2 * (integrand.headD 0 + integrand.getLastD 0)) * d
  | none => trapezoid (List.zip pb.waves integrand)

/-- passbands.py:1154-1215 `fluxes_to_bandflux` of a two-dimensional matrix (one row per time, all
rows of one length; a three-dimensional matrix applies the same computation to every row). -/
def Passband.bandflux (pb : Passband K) (m : List (List K)) : Except Err (List K) :=
  match m with
  | [] => .error .valueError
  | row :: _ =>
    if row = [] then .error .valueError
    else if pb.waves.length ≠ row.length then .error .valueError
    else .ok (m.map pb.integrate)

end LCL
