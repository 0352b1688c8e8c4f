import Verif.Spec.EndToEnd
import Verif.Model.MultiObject

/-!
# Specification vocabulary for surveys of any physical model (C126)
-/

namespace LCL.CompositeSpec
open LCL LCL.PhysSpec LCL.EndToEnd LCL.EndToEndSpec
variable {V W R : Type}

/-- With the parameters `p` the effect multiplies the band flux in each filter and at each time by `g f t`, and draws no random numbers. -/
def ScalesBand (e : Effect V R ℝ) (p : Params ℝ) (g : Name → ℝ → ℝ) : Prop :=
  ∀ ts fs r (B : Name → ℝ → ℝ), fs.length = ts.length →
    e.applyBand p ts fs r (List.zipWith B fs ts) = .ok (List.zipWith (fun f t => g f t * B f t) fs ts, r)

/-- A bandflux model's own computation gives `B f t` in filter `f` at time `t` (or fails), certainly for the filters in `known`, and draws no random numbers. -/
def BandGives (m : BandModel V R ℝ) (st : SState ℝ) (known : Name → Prop) (B : Name → ℝ → ℝ) : Prop :=
  ∀ ts fs r, fs.length = ts.length →
    (∀ out, m.computeBandflux ts fs st r = .ok out → out = (List.zipWith B fs ts, r)) ∧ ((∀ f ∈ fs, known f) → ∃ out, m.computeBandflux ts fs st r = .ok out)

/-- The flux of the spectrum `H` in filter `f` at time `t` (0 if the group has no such filter). -/
noncomputable def bandOf (g : PassbandGroup ℝ) (H : ℝ → ℝ → ℝ) (f : Name) (t : ℝ) : ℝ :=
  match g.getItem f with
  | .ok pb => bandIntegral pb (H t)
  | .error _ => 0

/-- The product of the factors of some effects. -/
noncomputable def factors (c : Effect V R ℝ → Name → ℝ → ℝ) (es : List (Effect V R ℝ)) (f : Name) (t : ℝ) : ℝ := (es.map fun e => c e f t).prod

/-- `Emits … o B`: in the state `st`, observed through the passbands `g`, the model `o` has the flux `B f t` in filter `f` at time `t`.
* An SED model: its observed spectrum integrated over the passband.
* A bandflux model: what it computes, times the factors of its effects under its own parameters.
* An additive model: the weighted sum of the fluxes of its objects, times the factors of its own effects under its own parameters.
* A random model: the flux of the object whose name is selected in the state, times the factors of its own effects.
The filters in `known` are those for which every part can answer. -/
inductive Emits (noKw : W) (g : PassbandGroup ℝ) (st : SState ℝ) (known : Name → Prop) (c : Effect V R ℝ → Name → ℝ → ℝ) :
    PhysModel V W R ℝ → (Name → ℝ → ℝ) → Prop
  | sed {m H} : ObservesIn m noKw st g H → (∀ f pb, g.getItem f = .ok pb → ExactGrid pb) → (∀ f, known f → ∃ pb, g.getItem f = .ok pb ∧ pb.waves ≠ []) →
      Emits noKw g st known c (.sed m) (bandOf g H)
  | band {m p B} : st.get? m.nodeString = some p → BandGives m st known B → (∀ e ∈ m.effects, ScalesBand e p (c e)) →
      Emits noKw g st known c (.band m) (fun f t => factors c m.effects f t * B f t)
  | additive {node setters objects weights effects p} {B : Nat → Name → ℝ → ℝ} : st.get? node = some p → weights.length = objects.length →
      (∀ (i : Nat) o, objects[i]? = some o → Emits noKw g st known c o (B i)) → (∀ e ∈ effects, ScalesBand e p (c e)) →
      Emits noKw g st known c (.additive node setters objects weights effects) (fun f t => factors c effects f t * (weights.mapIdx fun i w => w * B i f t).sum)
  | random {node setters objects names effects p} {i : Nat} {n o B} : st.get? node = some p → p.get? "selected_object".toList = some (.str n) → names.Nodup →
      names[i]? = some n → objects[i]? = some o → Emits noKw g st known c o B → (∀ e ∈ effects, ScalesBand e p (c e)) →
      Emits noKw g st known c (.random node setters objects names effects) (fun f t => factors c effects f t * B f t)

/-- The model gives one flux per time whenever it gives fluxes. -/
def OnePerTime (noKw : W) (o : PhysModel V W R ℝ) : Prop :=
  ∀ g ts fs st r out, PhysModel.bandfluxesSingle noKw g ts fs st o r = .ok out → out.1.length = ts.length

end LCL.CompositeSpec
