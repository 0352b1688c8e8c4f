import Verif.Model.FullRun
import Verif.Model.Sncosmo
import Verif.Model.SniaSource

/-!
# The supernova of the example given to `simulate_lightcurves`

`src/lightcurvelynx/example_runs/simulate_snia.py` lines 25-85 builds a graph (`Model/SniaSource.lean`) whose root is a `SncosmoWrapperModel` (`Model/Sncosmo.lean`).
Here the two are put together into the SED model that `simulate_lightcurves` (`Model/FullRun.lean`) is called with.
-/

namespace LCL.SniaSurvey
open LCL LCL.SniaSource

/-- simulate_snia.py:74-84 with sncomso_models.py:58-139 and 243-279: the source as an SED model: its `compute_sed` is that of the wrapper, its wavelength range that of
the sncosmo source (simplification: constant; the code asks the source), redshifting is on (physical_model.py:249-263), there are no effects. The wrapper owns a
mutable source; what `compute_sed` returns does not depend on its history (`C97_repeatable`), so the model uses the object as constructed. -/
noncomputable def sniaModel {ρ : Type} (lib : Sn.Lib) (m : Sn.Obj) : SEDModel Unit Unit (Gens ρ) ℝ where
  nodeString := m.node
  setters := []
  computeSed := fun _ st times waves => (Sn.compute lib m st times waves).2
  minwave := fun _ => some lib.minwave
  maxwave := fun _ => some lib.maxwave
  extrap := m.extrap
  applyRedshift := true
  restEffects := []
  obsEffects := []

end LCL.SniaSurvey
