import Verif.Model.Salt2
import Verif.Model.GridIO
import Verif.Model.BasicModels

/-!
# Model of SALT2 models read from a directory

`src/lightcurvelynx/models/salt2_jax.py` lines 84-189, with `BicubicInterpolator.from_grid_file` (`src/lightcurvelynx/utils/bicubic_interp.py` lines 177-191). The reader of grid
files is in `Model/GridIO.lean`, the interpolation in `Model/Bicubic.lean`, the colour law and the spectrum in `Model/Salt2.lean`.

Simplification: a file of a directory is known by its name; the content of a grid file is the columns of its table, that of a colour-law file its tokens.
-/

namespace LCL.Salt2Files
open LCL LCL.Salt2

/-- bicubic_interp.py:177-191 `from_grid_file`. -/
def fromGridFile {K : Type} [Field K] [LinearOrder K] (file : Option (List (List K))) (scale : K) : Except Err (Bicubic K) :=
  match readGrid file true with
  | .error e => .error e
  | .ok (x, y, z) => mkBicubic x y (z.map fun r => r.map fun v => v * scale)

/-- The files of a directory. -/
structure Dir where
  grid : Name → Option (List (List ℝ))
  text : Name → Option (List Name)

/-- salt2_jax.py:104-114: what the constructor loads. -/
structure Data where
  m0 : Bicubic ℝ
  m1 : Bicubic ℝ
  law : ColorLaw ℝ

/-- salt2_jax.py:102-114: loading the files; `open` of a missing file raises. -/
noncomputable def load (P : Parser ℝ) (dir : Dir) (m0File m1File clFile : Name) : Except Err Data :=
  match fromGridFile (dir.grid m0File) (1 / 10 ^ 12) with
  | .error e => .error e
  | .ok m0 => match fromGridFile (dir.grid m1File) (1 / 10 ^ 12) with
    | .error e => .error e
    | .ok m1 => match dir.text clFile with
      | none => .error .fileNotFound
      | some toks => match readLaw P toks with
        | .error e => .error e
        | .ok law => .ok ⟨m0, m1, law⟩

/-- bicubic_interp.py:193-251 `__call__` for one pair: every query gives a number (`C48_in_range`). -/
noncomputable def value (b : Bicubic ℝ) (phase wave : ℝ) : ℝ := (b.at phase wave).getD 0

/-- The rows of an array of shape (times, wavelengths). -/
def toRows (nt nw : Nat) (a : NArr) : Mat ℝ := (List.range nt).map fun i => (List.range nw).map fun j => a.get [j, i]

/-- salt2_jax.py:148-189 `compute_sed`. -/
noncomputable def computeSed (d : Data) (node : Name) (st : SState ℝ) (times waves : List ℝ) : Except Err (Mat ℝ) :=
  match localParams st node with
  | .error e => .error e
  | .ok p => match numArg p "t0", numArg p "x0", numArg p "x1", numArg p "c" with
    | .ok t0, .ok x0, .ok x1, .ok c => match Salt2.computeSed (value d.m0) (value d.m1) d.law x0 x1 c t0 times waves with
      | .error e => .error e
      | .ok a => .ok (toRows times.length waves.length a)
    | .error e, _, _, _ => .error e
    | .ok _, .error e, _, _ => .error e
    | .ok _, .ok _, .error e, _ => .error e
    | .ok _, .ok _, .ok _, .error e => .error e

/-- salt2_jax.py:12-189: the SED model. The class has no minwave and maxwave of its own: physical_model.py:97-129 return None. -/
noncomputable def model {V W R : Type} (d : Data) (node : Name) (extrap : Option (ℝ → List ℝ → List ℝ → Mat ℝ)) : SEDModel V W R ℝ where
  nodeString := node
  setters := []
  computeSed := fun _ st times waves => computeSed d node st times waves
  minwave := fun _ => none
  maxwave := fun _ => none
  extrap := extrap
  applyRedshift := true
  restEffects := []
  obsEffects := []

end LCL.Salt2Files
