import Verif.Model.ObsTable
import Mathlib.Analysis.SpecialFunctions.Complex.Arg

/-!
# Model of `DetectorFootprint` (`src/lightcurvelynx/astro_utils/detector_footprint.py`)

Angles are real numbers in degrees, arithmetic is exact. An array is its shape and its entries in order.
astropy is modelled by its contracts: `skyoffset_frame` multiplies the unit vector of the point by
`rotation_matrix(-rotation, "x") @ rotation_matrix(-dec0, "y") @ rotation_matrix(ra0, "z")` and converts back to longitude (in `[0, 360)`)
and latitude; a `WCS` maps a longitude and latitude to pixel coordinates, or to NaN (`none`) where its projection is undefined; the TAN
projection (wcslib, with bounds checking) is the gnomonic projection of the hemisphere around its reference point. A region contains no
NaN point. Not modelled: `plot`.
-/

namespace LCL
open Real

/-- A numpy array. -/
structure NdArray where
  shape : List Nat
  data : List ℝ

/-- An argument: a Python number, or an array. -/
inductive NpArg
  | scalar (x : ℝ)
  | array (a : NdArray)

/-- `np.atleast_1d`. -/
def NpArg.atleast1d : NpArg → NdArray
  | .scalar x => ⟨[1], [x]⟩
  | .array a => if a.shape = [] then ⟨[1], a.data⟩ else a

/-- `np.isscalar`. -/
def NpArg.isScalar : NpArg → Bool
  | .scalar _ => true
  | .array _ => false

/-- detector_footprint.py:193-197, 198-202, 207-211: bring an array to the shape of the points. -/
def fitShape (shape : List Nat) (a : NdArray) : Except Err NdArray :=
  if a.shape = shape then .ok a
  else if a.shape ≠ [1] then .error .valueError
  else .ok ⟨shape, List.replicate shape.prod (a.data.headD 0)⟩

/-- `rotation_matrix(angle, "z")` applied to a vector. -/
noncomputable def rotZ (angle : ℝ) (v : ℝ × ℝ × ℝ) : ℝ × ℝ × ℝ :=
  (cos angle * v.1 + sin angle * v.2.1, -sin angle * v.1 + cos angle * v.2.1, v.2.2)

/-- `rotation_matrix(angle, "y")` applied to a vector. -/
noncomputable def rotY (angle : ℝ) (v : ℝ × ℝ × ℝ) : ℝ × ℝ × ℝ :=
  (cos angle * v.1 - sin angle * v.2.2, v.2.1, sin angle * v.1 + cos angle * v.2.2)

/-- `rotation_matrix(angle, "x")` applied to a vector. -/
noncomputable def rotX (angle : ℝ) (v : ℝ × ℝ × ℝ) : ℝ × ℝ × ℝ :=
  (v.1, cos angle * v.2.1 + sin angle * v.2.2, -sin angle * v.2.1 + cos angle * v.2.2)

/-- astropy's transformation to the sky offset frame (angles in degrees). -/
noncomputable def skyOffset (v : ℝ × ℝ × ℝ) (ra0 dec0 rotation : ℝ) : ℝ × ℝ × ℝ :=
  rotX (-(rotation * (π / 180))) (rotY (-(dec0 * (π / 180))) (rotZ (ra0 * (π / 180)) v))

open Classical in
/-- The longitude of a vector, in `[0, 360)` degrees. -/
noncomputable def lonDeg (v : ℝ × ℝ × ℝ) : ℝ :=
  let a := Complex.arg ⟨v.1, v.2.1⟩ * (180 / π)
  if a < 0 then a + 360 else a

/-- The latitude of a vector, in degrees. -/
noncomputable def latDeg (v : ℝ × ℝ × ℝ) : ℝ := Complex.arg ⟨sqrt (v.1 ^ 2 + v.2.1 ^ 2), v.2.2⟩ * (180 / π)

open Classical in
/-- detector_footprint.py:126-127. -/
noncomputable def centerLon (l : ℝ) : ℝ := if 180 < l then l - 360 else l

open Classical in
/-- detector_footprint.py:129-130. -/
noncomputable def centerLat (l : ℝ) : ℝ := if 90 < l then l - 180 else l

/-- detector_footprint.py:87-132 `rotate_to_center`, of one point. -/
noncomputable def rotateToCenter (ra dec ra0 dec0 rotation : ℝ) : ℝ × ℝ :=
  (centerLon (lonDeg (skyOffset (ObsTable.toCart ra dec) ra0 dec0 rotation)),
    centerLat (latDeg (skyOffset (ObsTable.toCart ra dec) ra0 dec0 rotation)))

/-- A `WCS`: longitude and latitude in degrees to 0-based pixel coordinates. -/
abbrev Wcs := ℝ → ℝ → Option (ℝ × ℝ)

open Classical in
/-- detector_footprint.py:34-39: the default WCS: TAN around (0, 0), reference pixel 0.5 (1-based, so -0.5 0-based), the given scale. -/
noncomputable def tanWcs (scale : ℝ) : Wcs := fun lon lat =>
  let v := ObsTable.toCart lon lat
  if v.1 ≤ 0 then none
  else some (v.2.1 / v.1 * (180 / π) / scale + 1 / 2 - 1, v.2.2 / v.1 * (180 / π) / scale + 1 / 2 - 1)

/-- A pixel region: membership and bounding box (`ixmin, ixmax, iymin, iymax`). -/
structure PixRegion where
  mem : ℝ × ℝ → Bool
  bbox : ℤ × ℤ × ℤ × ℤ

/-- A region as the user gives it: a pixel region, or a sky region (its `to_pixel`). -/
inductive AnyRegion
  | pixel (r : PixRegion)
  | sky (toPixel : Wcs → PixRegion)

/-- The attributes of a `DetectorFootprint`. -/
structure Footprint where
  wcs : Wcs
  region : PixRegion

open Classical in
/-- detector_footprint.py:27-39. -/
noncomputable def chooseWcs (wcs : Option Wcs) (scale : Option ℝ) : Except Err Wcs :=
  match wcs, scale with
  | some w, _ => .ok w
  | none, none => .error .valueError
  | none, some s => if s ≤ 0 then .error .valueError else .ok (tanWcs s)

/-- detector_footprint.py:44-46. -/
def AnyRegion.toPix (r : AnyRegion) (wcs : Wcs) : PixRegion :=
  match r with
  | .pixel p => p
  | .sky f => f wcs

/-- detector_footprint.py:26-52 `__init__`. -/
noncomputable def Footprint.init (region : AnyRegion) (wcs : Option Wcs) (scale : Option ℝ) : Except Err Footprint :=
  match chooseWcs wcs scale with
  | .error e => .error e
  | .ok w =>
    let b := (region.toPix w).bbox
    if b.1 ≤ 0 ∧ 0 ≤ b.2.1 ∧ b.2.2.1 ≤ 0 ∧ 0 ≤ b.2.2.2 then .ok ⟨w, region.toPix w⟩
    else .error .valueError

open Classical in
/-- `RectanglePixelRegion` with angle 0 and its bounding box (`regions`). -/
noncomputable def rectPixels (cx cy w h : ℝ) : PixRegion where
  mem p := decide (|p.1 - cx| < w / 2 ∧ |p.2 - cy| < h / 2)
  bbox := (⌊cx - w / 2 + 1 / 2⌋, ⌈cx + w / 2 + 1 / 2⌉, ⌊cy - h / 2 + 1 / 2⌋, ⌈cy + h / 2 + 1 / 2⌉)

open Classical in
/-- detector_footprint.py:54-85 `from_rect`, with the default WCS. The sky rectangle around (0, 0) becomes the pixel rectangle around the
reference pixel with the sizes divided by the pixel scale (`regions` measures the scale by a step of one arcsecond to the north; here it
is the scale itself). Sizes that are not positive are rejected by `regions`. -/
noncomputable def Footprint.fromRect (width height : ℝ) (scale : Option ℝ) : Except Err Footprint :=
  if width ≤ 0 ∨ height ≤ 0 then .error .valueError
  else match scale with
    | none => .error .valueError
    | some s => Footprint.init (.sky fun _ => rectPixels (-(1 / 2)) (-(1 / 2)) (width / s) (height / s)) none (some s)

/-- detector_footprint.py:134-159 and 214-218, of one point. -/
noncomputable def Footprint.containsAt (fp : Footprint) (ra dec ra0 dec0 : ℝ) (rotation : Option ℝ) : Bool :=
  let p := rotateToCenter ra dec ra0 dec0 (rotation.getD 0)
  match fp.wcs p.1 p.2 with
  | none => false
  | some q => fp.region.mem q

/-- The result: one truth value, or an array of them. -/
inductive BoolOut
  | one (b : Bool)
  | many (shape : List Nat) (l : List Bool)

/-- detector_footprint.py:214-218: elementwise on arrays of one shape. -/
noncomputable def Footprint.containsAll (fp : Footprint) : List ℝ → List ℝ → List ℝ → List ℝ → Option (List ℝ) → List Bool
  | ra :: ras, dec :: decs, a :: as, d :: ds, none => fp.containsAt ra dec a d none :: Footprint.containsAll fp ras decs as ds none
  | ra :: ras, dec :: decs, a :: as, d :: ds, some (r :: rs) =>
    fp.containsAt ra dec a d (some r) :: Footprint.containsAll fp ras decs as ds (some rs)
  | _, _, _, _, _ => []

/-- detector_footprint.py:205-211. -/
def fitRotation (shape : List Nat) : Option NpArg → Except Err (Option (List ℝ))
  | none => .ok none
  | some r => match fitShape shape r.atleast1d with
    | .error e => .error e
    | .ok a => .ok (some a.data)

/-- detector_footprint.py:219-222 (`result[0]` of an empty array raises IndexError). -/
def packResult (scalar : Bool) (shape : List Nat) (l : List Bool) : Except Err BoolOut :=
  if scalar then match l.head? with
    | some b => .ok (.one b)
    | none => .error .indexError
  else .ok (.many shape l)

/-- detector_footprint.py:161-222 `contains`. -/
noncomputable def Footprint.contains (fp : Footprint) (ra dec ra0 dec0 : NpArg) (rotation : Option NpArg) : Except Err BoolOut :=
  let shape := ra.atleast1d.shape
  if shape ≠ dec.atleast1d.shape then .error .valueError
  else match fitShape shape ra0.atleast1d with
    | .error e => .error e
    | .ok a => match fitShape shape dec0.atleast1d with
      | .error e => .error e
      | .ok d => match fitRotation shape rotation with
        | .error e => .error e
        | .ok r => packResult ra.isScalar shape (fp.containsAll ra.atleast1d.data dec.atleast1d.data a.data d.data r)

end LCL
