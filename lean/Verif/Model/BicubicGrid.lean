import Verif.Model.Bicubic

/-!
# Model of `BicubicInterpolator.__call__` as it is written: on the flattened grid of all pairs of queries

`Model/Bicubic.lean` gives the value of one pair of queries. Here the arrays the code builds are followed: the axes are expanded to their
cross product by `meshgrid` and `ravel`, both interpolations are evaluated everywhere, selected by masks, and reshaped. An element that
needs a grid value outside the grid is `none` (jax wraps or clamps the index; such elements are not selected on accepted interpolators).
-/

namespace LCL
variable {K : Type} [Field K] [LinearOrder K] [FloorRing K] {α β γ δ ε : Type}

/-- `jnp.meshgrid(x, y, indexing="ij")`. -/
def meshgridIJ (xs : List α) (ys : List β) : List (List α) × List (List β) := (xs.map fun x => ys.map fun _ => x, xs.map fun _ => ys)

/-- bicubic_interp.py:112-133 `expand_to_cross_products` (`jnp.ravel` goes row by row). -/
def expandToCross (xs : List α) (ys : List β) : List α × List β := ((meshgridIJ xs ys).1.flatten, (meshgridIJ xs ys).2.flatten)

/-- `results.reshape(n, m)`. -/
def reshape2 (n m : Nat) (l : List α) : Except Err (List (List α)) :=
  if l.length = n * m then .ok ((List.range n).map fun i => (l.drop (i * m)).take m) else .error .valueError

/-- A function of four arrays, element by element. -/
def zip4 (f : α → β → γ → δ → ε) (as : List α) (bs : List β) (cs : List γ) (ds : List δ) : List ε :=
  List.zipWith (fun p q => f p.1 p.2 q.1 q.2) (as.zip bs) (cs.zip ds)

/-- `jnp.where(mask, a, b)`. -/
def whereMask (mask : List Bool) (a b : List α) : List α := List.zipWith (fun m p => if m then p.1 else p.2) mask (a.zip b)

/-- bicubic_interp.py:36-56 at an element whose weights may be missing. -/
def linearEl (z : List (List K)) (ix iy : Int) (wx wy : Option K) : Option K :=
  match wx, wy with
  | some ax, some ay => linearAt z ix iy ax ay
  | _, _ => none

/-- bicubic_interp.py:59-109 at an element whose distances may be missing. -/
def cubicEl (z : List (List K)) (ix iy : Int) (dx dy : Option K) : Option K :=
  match dx, dy with
  | some ax, some ay => cubicAt z ix iy ax ay
  | _, _ => none

/-- bicubic_interp.py:208-251 `__call__`. -/
def Bicubic.callArrays (b : Bicubic K) (xs ys : List K) : Except Err (List (List (Option K))) :=
  let i := expandToCross (xs.map b.x.find) (ys.map b.y.find)
  let w := expandToCross (xs.map b.x.frac) (ys.map b.y.frac)
  let lin := zip4 (linearEl b.z) i.1 i.2 w.1 w.2
  let d := expandToCross (xs.map b.x.dist) (ys.map b.y.dist)
  let cub := zip4 (cubicEl b.z) i.1 i.2 d.1 d.2
  let o := expandToCross (xs.map b.x.outside) (ys.map b.y.outside)
  let out := List.zipWith (· || ·) o.1 o.2
  let e := expandToCross (xs.map b.x.onEdge) (ys.map b.y.onEdge)
  let edge := List.zipWith (· || ·) e.1 e.2
  reshape2 xs.length ys.length (whereMask out (out.map fun _ => some 0) (whereMask edge lin cub))

end LCL
