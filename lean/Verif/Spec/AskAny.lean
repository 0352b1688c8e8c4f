import Verif.Model.AskAny
import Verif.Spec.Direct

/-!
# Specification vocabulary for asking any physical model (C144)
-/

namespace LCL.AskAnySpec
open LCL
variable {V W R : Type}

/-- `ev` treats observations one by one and draws no random numbers: whenever it answers for some times and filters, each of its answers is the one it gives when asked for
that time and filter alone. -/
def OneByOne (ev : List ℝ → List Name → R → Except Err (List ℝ × R)) : Prop :=
  ∀ ts fs r out r', fs.length = ts.length → ev ts fs r = .ok (out, r') → r' = r ∧ out.length = ts.length ∧
    ∀ (i : Nat) t f x, ts[i]? = some t → fs[i]? = some f → out[i]? = some x → ∀ r2, ev [t] [f] r2 = .ok ([x], r2)

/-- An effect, with the parameters `p`, treats the band fluxes one by one and draws no random numbers. -/
def EffectOneByOne (e : Effect V R ℝ) (p : Params ℝ) : Prop :=
  ∀ ts fs r a out r', fs.length = ts.length → a.length = ts.length → e.applyBand p ts fs r a = .ok (out, r') → r' = r ∧ out.length = ts.length ∧
    ∀ (i : Nat) t f x y, ts[i]? = some t → fs[i]? = some f → a[i]? = some x → out[i]? = some y → ∀ r2, e.applyBand p [t] [f] r2 [x] = .ok ([y], r2)

/-- A model treats observations one by one in the state `st`. -/
def ModelOneByOne (noKw : W) (g : PassbandGroup ℝ) (st : SState ℝ) (o : PhysModel V W R ℝ) : Prop :=
  OneByOne fun ts fs r => PhysModel.bandfluxesSingle noKw g ts fs st o r

end LCL.AskAnySpec
