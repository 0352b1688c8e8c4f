import Verif.Model.BasicModels
import Verif.Model.GridIO

/-!
# Model of the other constructors of `StaticSEDModel`

`src/lightcurvelynx/models/static_sed_model.py` lines 73-142: `from_file` and `from_synphot`. The constructor itself is in `Model/BasicModels.lean`, the reader of numpy files in `Model/GridIO.lean`.
-/

namespace LCL.StaticFiles
open LCL
variable {K : Type} [Field K] [LinearOrder K]

/-- `a.T` of a two-column array. -/
def transposed (rows : List (List K)) : SedArray K := .mat [rows.map fun r => r.getD 0 0, rows.map fun r => r.getD 1 0]

/-- static_sed_model.py:73-95 `from_file`: the tables of the model. -/
def fromFile (fs : Dict Name (FileContent K)) (path : Name) : Except Err (List (SedTable K)) :=
  match readNumpy fs path with
  | .error e => .error e
  | .ok (.two cols rows) => if cols ≠ 2 then .error .valueError else staticSedInit (.array (transposed rows))
  | .ok _ => .error .valueError

/-- A synphot model as far as the constructor looks at it: its redshift, the wavelengths it is sampled at in Angstrom, and its flux in PHOTLAM (photons/s/cm^2/AA). -/
structure SpModel (K : Type) where
  z : K
  waveset : List K
  photlam : K → K

/-- Planck's constant in erg s. -/
def planck : K := 662607015 / 10 ^ 35

/-- static_sed_model.py:141: synphot's conversion of PHOTLAM at a wavelength in Angstrom to nJy (a photon carries `hc / lambda`, and `F_nu = F_lambda lambda^2 / c`; 1 nJy is 1e-32 erg/s/cm^2/Hz). -/
def photlamToNJy (w f : K) : K := f * planck * w * 10 ^ 32

/-- static_sed_model.py:97-142 `from_synphot`, with synphot installed: the tables of the model. -/
def fromSynphot (sp : SpModel K) (waves : Option (List K)) : Except Err (List (SedTable K)) :=
  if sp.z > 0 then .error .valueError
  else
    let ws := waves.getD sp.waveset
    staticSedInit (.array (.mat [ws, ws.map fun w => photlamToNJy w (sp.photlam w)]))

end LCL.StaticFiles
