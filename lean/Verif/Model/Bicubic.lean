import Verif.Base.Py
import Verif.Base.Num
import Mathlib.Algebra.Order.Floor.Ring

/-!
# Model of the bicubic interpolation (`src/lightcurvelynx/utils/bicubic_interp.py`)

Numbers are elements of a linearly ordered field with a floor function.
-/

namespace LCL
variable {K : Type} [Field K] [LinearOrder K] [IsStrictOrderedRing K] [FloorRing K]

/-- bicubic_interp.py:14-33 `_kernel_value`. -/
def kernel (t : K) : K :=
  if |t| > 2 then 0
  else if |t| < 1 then |t| * |t| * (3 / 2 * |t| - 5 / 2) + 1
  else -(1 / 2) * (-4 + |t| * (8 + |t| * (-5 + |t|)))

/-- bicubic_interp.py:279-310: an axis; `step` is present if the steps are regular. -/
structure BAxis (K : Type) where
  values : List K
  step : Option K
deriving DecidableEq

/-- `values[1:] - values[:-1]`. -/
def stepSizes (v : List K) : List K := List.zipWith (fun a b => b - a) v v.tail

/-- `jnp.min`. -/
def listMin : List K → K
  | [] => 0
  | [a] => a
  | a :: b :: l => min a (listMin (b :: l))

/-- `jnp.max`. -/
def listMax : List K → K
  | [] => 0
  | [a] => a
  | a :: b :: l => max a (listMax (b :: l))

/-- bicubic_interp.py:279-310 `BicubicAxis.__init__` for one-dimensional values. -/
def mkAxis (v : List K) : Except Err (BAxis K) :=
  if v.length < 3 then .error .valueError
  else if ((stepSizes v).any fun d => decide (d ≤ 0)) = true then .error .valueError
  else if listMax (stepSizes v) - listMin (stepSizes v) > 1 / 1000000 then .ok ⟨v, none⟩
  else .ok ⟨v, some (1 / 2 * listMin (stepSizes v) + 1 / 2 * listMax (stepSizes v))⟩

/-- bicubic_interp.py:318-324: the two searches. -/
def BAxis.search (a : BAxis K) (q : K) : Int :=
  match a.step with
  | some h => ⌊(q - a.values.headD 0) / h⌋
  | none => (searchRight a.values q : Int) - 1

/-- bicubic_interp.py:345. -/
def clampLow (i : Int) : Int := if i < 0 then 0 else i

/-- bicubic_interp.py:346. -/
def clampHigh (n : Int) (i : Int) : Int := if i ≥ n - 1 then n - 2 else i

/-- bicubic_interp.py:326-348 `find_indices` for one query. -/
def BAxis.find (a : BAxis K) (q : K) : Int := clampHigh a.values.length (clampLow (a.search q))

/-- bicubic_interp.py:350-364 `out_of_bounds` for one query. -/
def BAxis.outside (a : BAxis K) (q : K) : Bool :=
  decide (q < a.values.headD 0) || decide (q > a.values.getLastD 0)

/-- A list at an index that may be negative; nothing outside the list. -/
def atIdx {β : Type} (l : List β) (i : Int) : Option β := if 0 ≤ i then l[i.toNat]? else none

/-- `z_vals[i][j]`; nothing outside the grid. (`jax` replaces an index outside by one inside. The code evaluates all
branches for all queries and then selects, lines 224, 232 and 249; only the selected one is modelled.) -/
def zAt (z : List (List K)) (i j : Int) : Option K := (atIdx z i).bind fun r => atIdx r j

/-- bicubic_interp.py:36-56 `_compute_linear`. -/
def linearAt (z : List (List K)) (ix iy : Int) (ax ay : K) : Option K :=
  match zAt z ix iy, zAt z ix (iy + 1), zAt z (ix + 1) iy, zAt z (ix + 1) (iy + 1) with
  | some a, some b, some c, some d => some ((1 - ax) * ((1 - ay) * a + ay * b) + ax * ((1 - ay) * c + ay * d))
  | _, _, _, _ => none

/-- The sum of four terms of line 80-109, for the offsets `-1`, `0`, `1`, `2`. -/
def comb4 (w : Int → K) (f : Int → Option K) : Option K :=
  match f (-1), f 0, f 1, f 2 with
  | some a, some b, some c, some d => some (w (-1) * a + w 0 * b + w 1 * c + w 2 * d)
  | _, _, _, _ => none

/-- bicubic_interp.py:77-78: the weights of the four offsets. -/
def weight (dx : K) (k : Int) : K := kernel (dx + k)

/-- bicubic_interp.py:59-109 `_compute_cubic`. -/
def cubicAt (z : List (List K)) (ix iy : Int) (dx dy : K) : Option K :=
  comb4 (weight dx) fun k => comb4 (weight dy) fun l => zAt z (ix + k) (iy + l)

/-- bicubic_interp.py:136-175: an interpolator. -/
structure Bicubic (K : Type) where
  x : BAxis K
  y : BAxis K
  z : List (List K)
deriving DecidableEq

/-- bicubic_interp.py:160-173 `BicubicInterpolator.__init__`, for a list of rows; an array has rows of one length. -/
def mkBicubic (x y : List K) (z : List (List K)) : Except Err (Bicubic K) :=
  match mkAxis x with
  | .error e => .error e
  | .ok ax => match mkAxis y with
    | .error e => .error e
    | .ok ay =>
      if z.length ≠ x.length ∨ (z.any fun r => decide (r.length ≠ y.length)) = true then .error .valueError
      else .ok ⟨ax, ay, z⟩

/-- bicubic_interp.py:221: where the query lies in the cell. -/
def BAxis.frac (a : BAxis K) (q : K) : Option K :=
  match atIdx a.values (a.find q), atIdx a.values (a.find q + 1) with
  | some u, some v => some ((q - u) / (v - u))
  | _, _ => none

/-- bicubic_interp.py:229: the same, with the opposite sign. -/
def BAxis.dist (a : BAxis K) (q : K) : Option K :=
  match atIdx a.values (a.find q), atIdx a.values (a.find q + 1) with
  | some u, some v => some ((u - q) / (v - u))
  | _, _ => none

/-- bicubic_interp.py:244. -/
def BAxis.onEdge (a : BAxis K) (q : K) : Bool :=
  decide (a.find q = 0) || decide (a.find q > (a.values.length : Int) - 3)

/-- bicubic_interp.py:213-249 for one pair of queries. -/
def Bicubic.at (b : Bicubic K) (qx qy : K) : Option K :=
  if b.x.outside qx || b.y.outside qy then some 0
  else if b.x.onEdge qx || b.y.onEdge qy then
    match b.x.frac qx, b.y.frac qy with
    | some ax, some ay => linearAt b.z (b.x.find qx) (b.y.find qy) ax ay
    | _, _ => none
  else
    match b.x.dist qx, b.y.dist qy with
    | some dx, some dy => cubicAt b.z (b.x.find qx) (b.y.find qy) dx dy
    | _, _ => none

/-- bicubic_interp.py:193-251 `__call__`: one row of results for each query `x`. -/
def Bicubic.call (b : Bicubic K) (xs ys : List K) : List (List (Option K)) := xs.map fun qx => ys.map fun qy => b.at qx qy

end LCL
