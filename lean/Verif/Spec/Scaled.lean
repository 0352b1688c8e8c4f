import Verif.Spec.Physical
import Verif.Model.EffectLib

/-!
# Specification vocabulary for effects that scale the flux (C125)
-/

namespace LCL.ScaledSpec
open LCL LCL.PhysSpec

/-- With the parameters `p` and asked for the wavelengths `ws`, the effect multiplies the flux at each time and wavelength by `g t w`, and draws no random
numbers. -/
def Scales {V R : Type} (e : Effect V R ℝ) (p : Params ℝ) (ws : List ℝ) (g : ℝ → ℝ → ℝ) : Prop :=
  ∀ ts r (H : ℝ → ℝ → ℝ), e.apply p ts ws r (ts.map fun t => ws.map (H t)) = .ok (ts.map fun t => ws.map fun w => g t w * H t w, r)

/-- What an observer sees at time `t` and wavelength `w` of a source with the spectrum `S`: the light emitted at the time and wavelength of the source's frame, reduced
by `rest` there, redshifted, and changed by `obs` on arrival. -/
noncomputable def seen (zs : Option (ℝ × ℝ)) (rest obs S : ℝ → ℝ → ℝ) (t w : ℝ) : ℝ :=
  obs t w * (frameFactor zs * (rest (frameTime zs t) (frameWave zs w) * S (frameTime zs t) (frameWave zs w)))

/-- The product of the factors of some effects. -/
noncomputable def product {ε : Type} (g : ε → ℝ → ℝ → ℝ) (es : List ε) (t w : ℝ) : ℝ := (es.map fun e => g e t w).prod

end LCL.ScaledSpec
