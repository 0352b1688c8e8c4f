import Verif.Model.Samplers3
import Verif.Model.ObsTable

/-!
# Model of the coverage map of a survey and of sampling from it

`obstable/obs_table.py` lines 304-334 (`build_moc`) and `math_nodes/ra_dec_sampler.py` lines 286-372 (`ApproximateMOCSampler`).

HEALPix, mocpy and cdshealpix are libraries: they enter as the record `Healpix`, about which the theorems assume the contract `Spec/MocChain.lean`. A coverage map (`mocpy.MOC`)
is its order and the list of its pixels of that order, in nested numbering (a pixel `p` of order `d` has the children `4p, …, 4p+3` of order `d + 1`).
-/

namespace LCL.MocChain
open LCL

/-- What the libraries provide: the pixel of order 29 of a position (degrees), the position of the centre of a pixel of order 29 (`healpix_to_skycoord(·, depth=29)`), and the
pixels of a given order that `MOC.from_cones` puts into the map of discs of one radius (degrees) around the given positions. -/
structure Healpix where
  pixel : ℝ × ℝ → Nat
  center : Nat → ℝ × ℝ
  cones : List (ℝ × ℝ) → ℝ → Nat → List Nat

/-- A coverage map: its order and its pixels. -/
structure Moc where
  order : Nat
  pixels : List Nat

/-- mocpy `MOC.to_order`: to a lower order, the pixels that contain one of the map; to a higher order, all their descendants. -/
def Moc.toOrder (m : Moc) (d : Nat) : Moc :=
  ⟨d, if d ≤ m.order then (m.pixels.map fun p => p / 4 ^ (m.order - d)).dedup
    else m.pixels.flatMap fun p => (List.range (4 ^ (d - m.order))).map fun j => p * 4 ^ (d - m.order) + j⟩

/-- obs_table.py:304-334 `build_moc`. `Latitude` refuses declinations outside [-90, 90] (ValueError); mocpy has orders up to 29. -/
noncomputable def buildMoc (H : Healpix) (t : ObsTable) (radius : Option ℝ) (maxDepth : Nat) : Except Err Moc :=
  match (match radius with | some r => some r | none => t.radius) with
  | none => .error .valueError
  | some r => match ObsTable.numCol t.cols "ra".toList with
    | .error e => .error e
    | .ok ras => match ObsTable.numCol t.cols "dec".toList with
      | .error e => .error e
      | .ok decs =>
        if decs.any (fun d => d < -90 || 90 < d) then .error .valueError
        else if 29 < maxDepth then .error .valueError
        else .ok ⟨maxDepth, H.cones (ras.zip decs) r maxDepth⟩

/-- ra_dec_sampler.py:286-297 `__init__`: the depth and the pixels. -/
def newSampler (m : Moc) (depth : Int) : Except Err (Nat × List Nat) := MocSampler.init depth (m.toOrder depth.toNat).pixels

/-- ra_dec_sampler.py:299-324 `from_file`: `file` is what `MOC.load` finds at the path. -/
def fromFile (file : Option Moc) (depth : Int) : Except Err (Nat × List Nat) :=
  match file with
  | none => .error .fileNotFound
  | some m => newSampler m depth

variable {σ ρ : Type}

/-- ra_dec_sampler.py:326-372 `compute`. -/
def compute (H : Healpix) (G : IntGen ρ) (smp : Nat × List Nat) (nd : PNode ℝ σ) (r : ρ) (s : GState ℝ) : ρ × GState ℝ × Except Err (Val ℝ × Val ℝ) :=
  match mocPixels G smp.1 smp.2 r s.numSamples with
  | (r', .error e) => (r', s, .error e)
  | (r', .ok qs) =>
    let ra := packed s.numSamples (qs.map fun q => .scalar (H.center q).1)
    let dec := packed s.numSamples (qs.map fun q => .scalar (H.center q).2)
    match saveRaDec nd s ra dec with
    | (s', none) => (r', s', .ok (ra, dec))
    | (s', some e) => (r', s', .error e)

end LCL.MocChain
