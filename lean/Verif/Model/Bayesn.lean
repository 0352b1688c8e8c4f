import Verif.Base.Py
import Verif.Base.Num
import Mathlib.LinearAlgebra.Matrix.NonsingularInverse

/-!
# Model of the spline code of `src/lightcurvelynx/models/bayesn.py`

Arrays are lists (matrices: functions of two indices) over an arbitrary linearly ordered field, in
exact arithmetic. `np.linalg.solve(A, B)` raises `LinAlgError` (modelled as `ValueError`, its base
class) for a singular `A` and otherwise returns the solution of `A X = B`.
-/

namespace LCL.Bayesn
variable {K : Type} [Field K] [LinearOrder K]

/-- `x[i]`. -/
def val (x : List K) (i : Nat) : K := x.getD i 0

/-- `x[i + 1] - x[i]` (also `np.diff(x)[i]`). -/
def gap (x : List K) (i : Nat) : K := val x (i + 1) - val x i

/-- bayesn.py:148-157: the tridiagonal matrix `K`. -/
def kMatrix (x : List K) : Matrix (Fin (x.length - 2)) (Fin (x.length - 2)) K := fun i j =>
  if j.1 = i.1 then (gap x i + gap x (i + 1)) / 3
  else if j.1 + 1 = i.1 then gap x i / 6
  else if j.1 = i.1 + 1 then gap x (i + 1) / 6
  else 0

/-- bayesn.py:159-166: the matrix `D`. -/
def dMatrix (x : List K) : Matrix (Fin (x.length - 2)) (Fin x.length) K := fun i j =>
  if j.1 = i.1 then 1 / gap x i
  else if j.1 = i.1 + 1 then -1 / gap x i - 1 / gap x (i + 1)
  else if j.1 = i.1 + 2 then 1 / gap x (i + 1)
  else 0

/-- numpy `np.linalg.solve`. -/
noncomputable def linSolve {m n : Nat} (A : Matrix (Fin m) (Fin m) K) (B : Matrix (Fin m) (Fin n) K) :
    Except Err (Matrix (Fin m) (Fin n) K) :=
  if A.det = 0 then .error .valueError else .ok (A⁻¹ * B)

/-- bayesn.py:130-171 `compute_invkd`: the first and last rows are zero. Fewer than two knots give
`np.zeros` a negative shape, which raises `ValueError`. -/
noncomputable def computeInvkd (x : List K) : Except Err (Nat → Nat → K) :=
  if x.length < 2 then .error .valueError
  else match linSolve (kMatrix x) (dMatrix x) with
    | .error e => .error e
    | .ok X => .ok fun r c =>
        if h : 1 ≤ r ∧ r - 1 < x.length - 2 ∧ c < x.length then X ⟨r - 1, h.2.1⟩ ⟨c, h.2.2⟩ else 0

/-- bayesn.py:199-200 (and 324-325): the interval of a query point. -/
def cell (x : List K) (q : K) : Nat := min (searchLeft x q - 1) (x.length - 2)

/-- bayesn.py:173-218 `natural_cubic_spline_basis_matrix_from_invkd`: entry `c` of the row of the query `q`. -/
def basisRow (x : List K) (invKD : Nat → Nat → K) (q : K) (c : Nat) : K :=
  let i := cell x q
  let h := val x (i + 1) - val x i
  let a := (val x (i + 1) - q) / h
  let b := 1 - a
  let cc := ((a ^ 3 - a) * h ^ 2) / 6
  let dd := ((b ^ 3 - b) * h ^ 2) / 6
  (if c = i + 1 then b else if c = i then a else 0) + (cc * invKD i c + dd * invKD (i + 1) c)

/-- The two helpers together, as `compute_sed` uses them (bayesn.py:477-483): one row of the basis
matrix times one vector of knot values. -/
noncomputable def splineAt (x y : List K) (q : K) : Except Err K :=
  match computeInvkd x with
  | .error e => .error e
  | .ok invKD => .ok ((List.range x.length).map fun c => basisRow x invKD q c * val y c).sum

/-- bayesn.py:476-484: entry of `W_grid` for the wavelength `q` and the phase `r`; `w` are the warping
coefficients `W_0 + theta * W_1` (one row per wavelength knot). -/
noncomputable def surface (l tau : List K) (w : List (List K)) (q r : K) : Except Err K :=
  match computeInvkd l with
  | .error e => .error e
  | .ok wl => match computeInvkd tau with
    | .error e => .error e
    | .ok wt => .ok ((List.range l.length).map fun a =>
        basisRow l wl q a * ((List.range tau.length).map fun b => basisRow tau wt r b * val (w.getD a []) b).sum).sum

/-! ## The template spline -/

/-- bayesn.py:240-242. -/
def alpha (x y : List K) (i : Nat) : K :=
  3 / gap x i * (val y (i + 1) - val y i) - 3 / gap x (i - 1) * (val y i - val y (i - 1))

/-- bayesn.py:245-251: `mu[i]` and `z[i]` of the forward elimination (`i ≤ n - 2`). -/
def forward (x y : List K) : Nat → K × K
  | 0 => (0, 0)
  | i + 1 =>
    let p := forward x y i
    let wave := 2 * (val x (i + 2) - val x i) - gap x i * p.1
    (gap x (i + 1) / wave, (alpha x y (i + 1) - gap x i * p.2) / wave)

/-- bayesn.py:254-256: `backward x y k` is `M[n - 1 - k]` of the back substitution. -/
def backward (x y : List K) : Nat → K
  | 0 => 0
  | k + 1 =>
    let j := x.length - 2 - k
    (forward x y j).2 - (forward x y j).1 * backward x y k

/-- bayesn.py:220-257 `compute_second_derivatives_1d`: `M[j]`, for `j < n`. -/
def secondDeriv (x y : List K) (j : Nat) : K := if j = 0 then 0 else backward x y (x.length - 1 - j)

/-- bayesn.py:259-291 `compute_2d_second_derivatives`, `Mx[i, j]`: along the columns of `z`. -/
def mx (x : List K) (z : List (List K)) (i j : Nat) : K :=
  secondDeriv x ((List.range x.length).map fun k => val (z.getD k []) j) i

/-- bayesn.py:259-291 `compute_2d_second_derivatives`, `My[i, j]`: along the rows of `z`. -/
def my (y : List K) (z : List (List K)) (i j : Nat) : K := secondDeriv y (z.getD i []) j

/-- bayesn.py:360-365 and 378-380: the cubic between two knots. -/
def blend (h a m0 m1 z0 z1 : K) : K :=
  (a ^ 3 * m0 + (1 - a) ^ 3 * m1) * h / 6 + (a * (z0 - m0 * h ^ 2 / 6) + (1 - a) * (z1 - m1 * h ^ 2 / 6))

/-- bayesn.py:293-410 `evaluate_2d_cubic_spline`: entry `(i, j)` of the result, for the query `(q, r)`. -/
def template (x y : List K) (z : List (List K)) (q r : K) : K :=
  let i := cell x q
  let j := cell y r
  let hy := gap y j
  let ay := (val y (j + 1) - r) / hy
  let hx := gap x i
  let ax := (val x (i + 1) - q) / hx
  let f0 := blend hx ax (mx x z i j) (mx x z (i + 1) j) (val (z.getD i []) j) (val (z.getD (i + 1) []) j)
  let f1 := blend hx ax (mx x z i (j + 1)) (mx x z (i + 1) (j + 1)) (val (z.getD i []) (j + 1)) (val (z.getD (i + 1) []) (j + 1))
  blend hy ay (my y z i j) (my y z i (j + 1)) f0 f1

end LCL.Bayesn
