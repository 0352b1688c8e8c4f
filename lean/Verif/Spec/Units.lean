import Verif.Model.Units

/-!
# Specification vocabulary for spectral units (C52)
-/

namespace LCL.UnitSpec
open LCL

/-- An index of an array of this shape. -/
def Valid : List Nat → List Nat → Prop
  | [], [] => True
  | n :: s, i :: is => i < n ∧ Valid s is
  | _, _ => False

/-- Two arrays are equal: the same shape and the same entries. -/
def Same (x y : NArr) : Prop := x.shape = y.shape ∧ ∀ i, Valid x.shape i → x.get i = y.get i

/-- The wavelength that belongs to an entry of a flux array: of an array of wavelengths along the last axis, of a
single wavelength, or of an array of the same shape as the flux. -/
inductive WaveFor (flux : NArr) : NArr → (List Nat → ℝ) → Prop
  | scalar {w} : w.shape = [] → WaveFor flux w (fun _ => w.get [])
  | row {w n s} : flux.shape = n :: s → w.shape = [n] → WaveFor flux w (fun i => w.get [i.headD 0])
  | full {w} : w.shape = flux.shape → WaveFor flux w (fun i => w.get i)

/-- The units are what they are said to be: a length, a power per area and wavelength, a power per area and
frequency; scales are positive. -/
structure GoodUnits (wave flam fnu : AUnit) : Prop where
  wave : wave.dim = (1, 0, 0) ∧ 0 < wave.scale
  flam : flam.dim = (-1, 1, -3) ∧ 0 < flam.scale
  fnu : fnu.dim = (0, 1, -2) ∧ 0 < fnu.scale

end LCL.UnitSpec
