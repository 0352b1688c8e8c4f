import Verif.Model.PassbandFiles

/-!
# Specification vocabulary for passband files (C111–C115)
-/

namespace LCL.PbFilesSpec
open LCL LCL.PbFiles
variable {K : Type} [Field K] [LinearOrder K]

/-- The wavelengths of a table strictly increase. -/
def Increasing (t : List (K × K)) : Prop := (t.map (·.1)).Pairwise (· < ·)

/-- The table with its wavelengths in Angstroms. -/
def inAngstrom (u : String) (t : List (K × K)) : List (K × K) := if u = "nm" then t.map fun p => (10 * p.1, p.2) else t

/-- The rows of a two-column file. -/
def rowsOf (t : List (K × K)) : List (List K) := t.map fun p => [p.1, p.2]

/-- Names of ASCII files. -/
def AsciiName (n : Name) : Prop := suffix n ∈ [".csv".toList, ".ecsv".toList, ".txt".toList, ".dat".toList]

/-- Names of VOTable files. -/
def VotName (n : Name) : Prop := suffix n ∈ [".xml".toList, ".vot".toList, ".votable".toList]

/-- The units a VOTable column can have, and what they are. -/
def UnitNamed (n : Name) (u : String) : Prop :=
  (u = "nm" ∧ lower n ∈ ["nm".toList, "nanometers".toList, "namo".toList, "nanometer".toList]) ∨
  (u = "A" ∧ lower n ∈ ["a".toList, "aa".toList, "angstrom".toList, "angstroms".toList])

/-- The content of a file called `name`, read with the argument `units`, is the transmission table `t` in the units `u`. -/
def Holds (c : Content K) (name : Name) (units : String) (t : List (K × K)) (u : String) : Prop :=
  (AsciiName name ∧ c = .text (rowsOf t) ∧ u = units) ∨
  (VotName name ∧ ∃ w v, c = .votable [w, v] (rowsOf t) ∧ "wave".toList <+: lower w.1 ∧ UnitNamed w.2 u)

/-- The result of a computation that leaves the disk as it is. -/
def keeping {α β : Type} (d : β) : Except Err α → Except Err (α × β)
  | .error e => .error e
  | .ok x => .ok (x, d)

end LCL.PbFilesSpec
