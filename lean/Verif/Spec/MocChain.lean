import Verif.Model.MocChain
import Verif.Spec.ObsTable

/-!
# Vocabulary for coverage maps (C139): the contract of the HEALPix libraries
-/

namespace LCL.MocSpec
open LCL LCL.MocChain LCL.ObsSpec Real

/-- The pixel of order `d` that contains a position: each pixel has four children. -/
def pixelAt (H : Healpix) (d : Nat) (q : ℝ × ℝ) : Nat := H.pixel q / 4 ^ (29 - d)

/-- What the libraries promise: pixels are numbered below `12 · 4^29`, a pixel contains its centre, two positions in one pixel of order `d` are at most `size d` (radians) apart;
the map of discs (of a radius that is not negative) contains every pixel a disc meets, each once, and only pixels with a point at most `slack d` (radians) outside a disc (`from_cones` is approximate). -/
structure Contract (H : Healpix) (size slack : Nat → ℝ) : Prop where
  pixel_lt : ∀ q, H.pixel q < 12 * 4 ^ 29
  center : ∀ p, p < 12 * 4 ^ 29 → H.pixel (H.center p) = p
  close : ∀ d, d ≤ 29 → ∀ q q', pixelAt H d q = pixelAt H d q' → sep q.1 q.2 q'.1 q'.2 ≤ size d
  covers : ∀ cs r d, 0 ≤ r → d ≤ 29 → ∀ c ∈ cs, ∀ q : ℝ × ℝ, sep q.1 q.2 c.1 c.2 ≤ r * (π / 180) → pixelAt H d q ∈ H.cones cs r d
  nodup : ∀ cs r d, (H.cones cs r d).Nodup
  near : ∀ cs r d, 0 ≤ r → d ≤ 29 → ∀ p ∈ H.cones cs r d, ∃ c ∈ cs, ∃ q : ℝ × ℝ, pixelAt H d q = p ∧ sep q.1 q.2 c.1 c.2 ≤ r * (π / 180) + slack d

/-- The radius used: the one given, otherwise the table's. -/
def RadiusOf (t : ObsTable) (radius : Option ℝ) (r : ℝ) : Prop := radius = some r ∨ radius = none ∧ t.radius = some r

/-- Row `i` of the table points at this position. -/
def Pointing (t : ObsTable) (i : Nat) (c : ℝ × ℝ) : Prop := num t "ra".toList i = some c.1 ∧ num t "dec".toList i = some c.2

end LCL.MocSpec
