import Verif.Model.LclibTemplate
import Verif.Spec.TemplateSed

/-!
# What is said about choosing one of several templates (C99)
-/

namespace LCL.MultiTemplateSpec
open LCL TemplateSedSpec

/-- A set of curves made by the constructor of `LightcurveData`. -/
def Made (d : LcData) : Prop :=
  ∃ source t0 periodic mags baseline, ProperSource source ∧ lcInit source t0 periodic mags baseline = .ok d

/-- The filter has a curve. -/
def Has (d : LcData) (f : Name) : Prop := f ∈ d.curves.keys

/-- Some of the curve sets has a curve in the filter. -/
def AnyHas (data : List LcData) (f : Name) : Prop := ∃ d ∈ data, Has d f

/-- No filter of the model lets through, faintly, a wavelength significant in another. -/
def NoLeaks (g : PassbandGroup ℝ) (data : List LcData) : Prop := ∀ fs : List Name, (∀ f ∈ fs, AnyHas data f) → NoLeak g fs

end LCL.MultiTemplateSpec
