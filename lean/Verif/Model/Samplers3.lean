import Verif.Model.Samplers2
import Verif.Base.Interp
import Mathlib.Analysis.SpecialFunctions.Trigonometric.Inverse

/-!
# Model of `src/lightcurvelynx/math_nodes/ra_dec_sampler.py` and `distribution_sampler.py`

Angles are real numbers. `rng.uniform(lo, hi)` is `lo + (hi - lo) * rng.random()` (its numpy
definition), `np.degrees(x) = x * (180 / π)`.
-/

namespace LCL
variable {σ ρ : Type}

/-- ra_dec_sampler.py:69-70 (also 261-262, 370-371): store both coordinates. -/
def saveRaDec {α : Type} (nd : PNode α σ) (s : GState α) (ra dec : Val α) : GState α × Option Err :=
  match s.set nd.str "ra".toList ra false with
  | (s1, some e) => (s1, some e)
  | (s1, none) => s1.set nd.str "dec".toList dec false

/-- numpy `degrees`. -/
noncomputable def degrees (x : ℝ) : ℝ := x * (180 / Real.pi)

/-! ## `UniformRADEC` -/

/-- ra_dec_sampler.py:56, 59: the right ascension of one uniform draw. -/
noncomputable def uniformRa (useDegrees : Bool) (u : ℝ) : ℝ :=
  let ra := 0 + (2 * Real.pi - 0) * u
  if useDegrees then degrees ra else ra

/-- ra_dec_sampler.py:57, 60: the declination of one uniform draw. -/
noncomputable def uniformDec (useDegrees : Bool) (v : ℝ) : ℝ :=
  let dec := Real.arcsin (-1 + (1 - (-1)) * v)
  if useDegrees then degrees dec else dec

/-- ra_dec_sampler.py:33-71 `UniformRADEC.compute`. -/
noncomputable def UniformRADEC.compute (G : UnitGen ρ ℝ) (useDegrees : Bool) (nd : PNode ℝ σ) (r : ρ) (s : GState ℝ) :
    ρ × GState ℝ × Except Err (Val ℝ × Val ℝ) :=
  let d1 := G.draw r s.numSamples
  let d2 := G.draw d1.1 s.numSamples
  let ra := packed s.numSamples (d1.2.map fun u => .scalar (uniformRa useDegrees u))
  let dec := packed s.numSamples (d2.2.map fun v => .scalar (uniformDec useDegrees v))
  match saveRaDec nd s ra dec with
  | (s', none) => (d2.1, s', .ok (ra, dec))
  | (s', some e) => (d2.1, s', .error e)

/-! ## `ObsTableUniformRADECSampler` -/

/-- ra_dec_sampler.py:246-247: `ra[~mask] = new; dec[~mask] = …`: refill the unmasked places in order. -/
def refill {P : Type} : List P → List Bool → List P → List P
  | p :: ps, true :: ms, new => p :: refill ps ms new
  | _ :: ps, false :: ms, q :: new => q :: refill ps ms new
  | ps, _, _ => ps

/-- `np.sum(~mask)`. -/
def missing (mask : List Bool) : Nat := mask.count false

/-- ra_dec_sampler.py:243-252: the rejection loop. `covered` is `data.is_observed` at this radius,
`fuel` the iterations left; the mask is recomputed from all points each time. -/
noncomputable def rejectLoop (G : UnitGen ρ ℝ) (covered : ℝ × ℝ → Bool) :
    Nat → ρ → List (ℝ × ℝ) → List Bool → ρ × List (ℝ × ℝ) × List Bool
  | 0, r, pts, mask => (r, pts, mask)
  | fuel + 1, r, pts, mask =>
    if missing mask > 0 then
      let d1 := G.draw r (missing mask)
      let d2 := G.draw d1.1 (missing mask)
      let pts' := refill pts mask (List.zip (d1.2.map (uniformRa true)) (d2.2.map (uniformDec true)))
      rejectLoop G covered fuel d2.1 pts' (pts'.map covered)
    else (r, pts, mask)

/-- ra_dec_sampler.py:214-263 `compute` (`maxIter` = `max_iterations`, positive by construction). -/
noncomputable def FootprintSampler.compute (G : UnitGen ρ ℝ) (covered : ℝ × ℝ → Bool) (maxIter : Nat) (nd : PNode ℝ σ)
    (r : ρ) (s : GState ℝ) : ρ × GState ℝ × Except Err (Val ℝ × Val ℝ) :=
  let n := s.numSamples
  let res := rejectLoop G covered maxIter r (List.replicate n (0, 0)) (List.replicate n false)
  let ra := packed n (res.2.1.map fun p => .scalar p.1)
  let dec := packed n (res.2.1.map fun p => .scalar p.2)
  match saveRaDec nd s ra dec with
  | (s', none) => (res.1, s', .ok (ra, dec))
  | (s', some e) => (res.1, s', .error e)

/-! ## `ApproximateMOCSampler` -/

/-- ra_dec_sampler.py:286-290 `__init__`: the depth and the pixel list at that depth
(`moc.to_order(depth).flatten()`, a mocpy call). -/
def MocSampler.init (depth : Int) (pixels : List Nat) : Except Err (Nat × List Nat) :=
  if depth < 2 ∨ depth > 29 then .error .valueError else .ok (depth.toNat, pixels)

/-- ra_dec_sampler.py:352-356, for one sample, in 64-bit unsigned arithmetic: the level-29 pixel. -/
def moc29 (depth : Nat) (pixel offset : Nat) : Nat :=
  ((pixel <<< (2 * (29 - depth))) % 2 ^ 64 + offset % 2 ^ 64) % 2 ^ 64

/-- ra_dec_sampler.py:353: `offset_range`. -/
def mocRange (depth : Nat) : Nat := (1 <<< (2 * (29 - depth))) % 2 ^ 64

/-- ra_dec_sampler.py:346-356: the level-29 pixels of all samples (`rng.choice` of an empty list
raises). `rng.choice(list, size=n)` draws indices. -/
def mocPixels (G : IntGen ρ) (depth : Nat) (pixels : List Nat) (r : ρ) (n : Nat) : ρ × Except Err (List Nat) :=
  if pixels = [] then (r, .error .valueError)
  else
    let d1 := G.draw r pixels.length n
    let d2 := G.draw d1.1 (mocRange depth) n
    (d2.1, .ok (List.zipWith (moc29 depth) (d1.2.map fun i => pixels.getD i 0) d2.2))

/-! ## `DistributionSampler` -/

/-- distribution_sampler.py:48-58 `__init__`: the knots of the inverse CDF (`interp1d` needs one
knot at least; a zero total is a division by zero, giving NaN knots: not modelled, rejected here). -/
noncomputable def DistSampler.init {K : Type} [Field K] [LinearOrder K] (x y : List K) : Except Err (List K × List K) :=
  if x.length ≠ y.length then .error .valueError
  else if y.any (fun v => decide (v < 0)) then .error .valueError
  else match (cumsum y).getLast? with
    | none => .error .indexError
    | some total => if total = 0 then .error .valueError else .ok ((cumsum y).map (· / total), x)

/-- distribution_sampler.py:93-98 through `interp1d`, for one draw: outside the knots it raises
(`bounds_error` is `True` unless the fill value is "extrapolate"). -/
noncomputable def DistSampler.sample {K : Type} [Field K] [LinearOrder K] (cdf x : List K) (u : K) : Except Err K :=
  match cdf.head?, cdf.getLast? with
  | some a, some b => if u < a ∨ b < u then .error .valueError else .ok (interpAt cdf x u)
  | _, _ => .error .valueError

/-- distribution_sampler.py:70-100 `compute`. -/
noncomputable def DistSampler.compute {K : Type} [Field K] [LinearOrder K] (G : UnitGen ρ K) (nd : PNode K σ)
    (cdf x : List K) (r : ρ) (s : GState K) : ρ × GState K × Except Err (Val K) :=
  let d := G.draw r s.numSamples
  match d.2.mapM (DistSampler.sample cdf x) with
  | .error e => (d.1, s, .error e)
  | .ok vs =>
    let res := packed s.numSamples (vs.map .scalar)
    match Heap.saveResultsS nd s res with
    | (s', none) => (d.1, s', .ok res)
    | (s', some e) => (d.1, s', .error e)

end LCL
