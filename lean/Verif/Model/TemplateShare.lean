import Verif.Model.Template

/-!
# Baselines shared between light curves and their caller
(`src/lightcurvelynx/models/lightcurve_template_model.py`, 83-153)

`LightcurveData` copies the light curves it is given (line 97) but keeps the caller's dictionary of
baselines (line 148) and converts it in place (lines 151-153). Dictionaries are cells of a world here.
-/

namespace LCL.TemplateShare

/-- The attribute `baseline`: the dictionary made by the constructor (line 143), which nothing else can
reach, or a dictionary of the caller. -/
inductive Base
  | own (d : Dict Name ℝ)
  | shared (r : Nat)

/-- A `LightcurveData`; its other attributes are its own. -/
structure Curve where
  data : LcData
  base : Base

/-- The caller's dictionaries and all light curves, in order of creation. -/
structure World where
  dicts : List (Dict Name ℝ)
  curves : List Curve

/-- lightcurve_template_model.py:333: what reading the attribute gives. -/
def baseOf (dicts : List (Dict Name ℝ)) : Base → Dict Name ℝ
  | .own d => d
  | .shared r => (dicts[r]?).getD []

/-- What a light curve shows: its attributes as they are now. -/
def seen (dicts : List (Dict Name ℝ)) (c : Curve) : LcData :=
  ⟨c.data.curves, c.data.t0, c.data.period, c.data.minTimes, c.data.maxTimes, baseOf dicts c.base⟩

/-- The things a program does. -/
inductive Op
  /-- `b = {...}`. -/
  | dict (d : Dict Name ℝ)
  /-- `b[f] = x`. -/
  | write (r : Nat) (f : Name) (x : ℝ)
  /-- `LightcurveData(lightcurves, t0, periodic=..., magnitudes_in=..., baseline=b)` (or no baseline). -/
  | build (source : LcSource) (t0 : ℝ) (periodic mags : Bool) (base : Option Nat)

/-- The effect, and the exception raised. Naming a dictionary that does not exist (which cannot be
written in Python) does nothing and reports `runtimeError`. -/
noncomputable def step (W : World) : Op → World × Option Err
  | .dict d => (⟨W.dicts ++ [d], W.curves⟩, none)
  | .write r f x => match W.dicts[r]? with
    | none => (W, some .runtimeError)
    | some d => (⟨W.dicts.set r (d.set f x), W.curves⟩, none)
  | .build source t0 periodic mags none => match lcInit source t0 periodic mags none with
    | .error e => (W, some e)
    | .ok c => (⟨W.dicts, W.curves ++ [⟨c, .own c.baseline⟩]⟩, none)
  | .build source t0 periodic mags (some r) => match W.dicts[r]? with
    | none => (W, some .runtimeError)
    | some b => match lcInit source t0 periodic mags (some b) with
      | .error e => (W, some e)
      | .ok c => (⟨W.dicts.set r (lcCallerBaseline mags b), W.curves ++ [⟨c, .shared r⟩]⟩, none)

/-- Do all of it, in order (exceptions are caught). -/
noncomputable def run (W : World) : List Op → World
  | [] => W
  | op :: ops => run (step W op).1 ops

end LCL.TemplateShare
