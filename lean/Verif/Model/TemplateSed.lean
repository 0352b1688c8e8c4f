import Verif.Model.Template
import Verif.Model.PassbandGroup
import Verif.Model.Physical

/-!
# Model of the template models' SED basis and bandfluxes (`models/lightcurve_template_model.py`, 387-543, 574-710)

Over the real numbers (exact arithmetic). `self.filters` is the list of the template's filters; the option of
`BaseLightcurveTemplateModel` to take all the filters of the passband group is not used by the models here.
-/

namespace LCL

open Classical in
/-- lightcurve_template_model.py:465-466: the wavelengths where a passband is significant. -/
noncomputable def sigWaves (pb : Passband ℝ) : List ℝ :=
  gather (pb.table.map fun p => decide (1 / 10 ^ 5 < p.2)) pb.waves

/-- lightcurve_template_model.py:461-470: the marks of one filter (a position beyond the grid raises IndexError). -/
noncomputable def sedMarks (g : PassbandGroup ℝ) (f : Name) : Except Err (List Bool) :=
  match g.getItem f with
  | .error e => .error e
  | .ok pb =>
    let positions := (sigWaves pb).map (searchLeft g.waves)
    if ∀ i ∈ positions, i < g.waves.length then .ok ((List.range g.waves.length).map fun i => decide (i ∈ positions))
    else .error .indexError

/-- lightcurve_template_model.py:462-470: the loop. -/
noncomputable def sedMarkAll (g : PassbandGroup ℝ) : List Name → Except Err (List (List Bool))
  | [] => .ok []
  | f :: fs => match sedMarks g f with
    | .error e => .error e
    | .ok row => match sedMarkAll g fs with
      | .error e => .error e
      | .ok rows => .ok (row :: rows)

/-- lightcurve_template_model.py:473: how many filters use a wavelength. -/
def sedCount (rows : List (List Bool)) (i : Nat) : Nat := rows.countP fun r => r.getD i false

/-- lightcurve_template_model.py:479: the wavelengths used by this filter only. -/
def sedValid (rows : List (List Bool)) (row : List Bool) : List Bool :=
  (List.range row.length).map fun i => row.getD i false && decide (sedCount rows i = 1)

/-- lightcurve_template_model.py:488-489. -/
noncomputable def sedOnes (valid : List Bool) : List ℝ := valid.map fun b => if b then 1 else 0

open Classical in
/-- lightcurve_template_model.py:478-494: the basis of one filter. -/
noncomputable def sedBasisOne (g : PassbandGroup ℝ) (rows : List (List Bool)) (f : Name) (row : List Bool) : Except Err (List ℝ) :=
  if (sedValid rows row).all (fun b => !b) then .error .valueError
  else match g.bandflux [sedOnes (sedValid rows row)] f with
    | .error e => .error e
    | .ok v => match v.head? with
      | none => .error .indexError
      | some total => if total ≤ 0 then .error .valueError else .ok ((sedOnes (sedValid rows row)).map (· / total))

/-- lightcurve_template_model.py:476-496: the loop (`rows` are the marks of all filters). -/
noncomputable def sedBasisLoop (g : PassbandGroup ℝ) (rows : List (List Bool)) : List (Name × List Bool) → Except Err (Dict Name (List ℝ))
  | [] => .ok []
  | (f, row) :: rest => match sedBasisOne g rows f row with
    | .error e => .error e
    | .ok b => match sedBasisLoop g rows rest with
      | .error e => .error e
      | .ok d => .ok ((f, b) :: d)

/-- lightcurve_template_model.py:443-496 `_create_sed_basis`. -/
noncomputable def createSedBasis (g : PassbandGroup ℝ) (filters : List Name) : Except Err (Dict Name (List ℝ)) :=
  match sedMarkAll g filters with
  | .error e => .error e
  | .ok rows => sedBasisLoop g rows (List.zip filters rows)

/-- The attributes of a `LightcurveTemplateModel` used here. -/
structure TemplateModel where
  data : LcData
  allWaves : List ℝ
  basis : Dict Name (List ℝ)

/-- lightcurve_template_model.py:420-441, on the filters of the curves. `t0Given`: whether a `t0` that is not None was
given. -/
noncomputable def templateBase (g : PassbandGroup ℝ) (filters : List Name) (t0Given : Bool) : Except Err (Dict Name (List ℝ)) :=
  if ¬ ∀ f ∈ filters, g.contains f = true then .error .valueError
  else match createSedBasis g filters with
    | .error e => .error e
    | .ok basis => if t0Given then .ok basis else .error .valueError

/-- lightcurve_template_model.py:636-648 `LightcurveTemplateModel.__init__`. -/
noncomputable def templateInit (source : LcSource) (lcT0 : ℝ) (periodic : Bool) (baseline : Option (Dict Name ℝ)) (g : PassbandGroup ℝ)
    (t0Given : Bool) : Except Err TemplateModel :=
  match lcInit source lcT0 periodic false baseline with
  | .error e => .error e
  | .ok d => match templateBase g d.curves.keys t0Given with
    | .error e => .error e
    | .ok basis => .ok ⟨d, g.waves, basis⟩

/-- `np.outer(a, b)` added to a matrix. -/
def addOuter (m : List (List ℝ)) (a b : List ℝ) : List (List ℝ) :=
  List.zipWith (fun row x => List.zipWith (fun r y => r + x * y) row b) m a

/-- lightcurve_template_model.py:525-531: the basis at the queried wavelengths. -/
noncomputable def sedAtWaves (m : TemplateModel) (b wavelengths : List ℝ) : List ℝ :=
  wavelengths.map fun w => npInterp m.allWaves b 0 0 w

/-- lightcurve_template_model.py:523-540: the loop over the filters; `times` are the shifted times. -/
noncomputable def templateSedLoop (m : TemplateModel) (times wavelengths : List ℝ) : List Name → List (List ℝ) → Except Err (List (List ℝ))
  | [], acc => .ok acc
  | f :: fs, acc => match m.basis.get? f with
    | none => .error .keyError
    | some b => match lcEval m.data times f with
      | .error e => .error e
      | .ok v => templateSedLoop m times wavelengths fs (addOuter acc v (sedAtWaves m b wavelengths))

/-- lightcurve_template_model.py:498-543, 650-674 `compute_sed`. -/
noncomputable def templateSed (m : TemplateModel) (t0 : ℝ) (times wavelengths : List ℝ) : Except Err (List (List ℝ)) :=
  templateSedLoop m (times.map (· - t0)) wavelengths m.data.curves.keys (times.map fun _ => wavelengths.map fun _ => 0)

/-- lightcurve_template_model.py:706-708: the loop over the filters. -/
noncomputable def templateFluxLoop (d : LcData) (times : List ℝ) (filters : List Name) : List Name → List ℝ → Except Err (List ℝ)
  | [], out => .ok out
  | f :: fs, out =>
    match lcEval d (gather (filters.map fun x => decide (x = f)) times) f with
    | .error e => .error e
    | .ok v => templateFluxLoop d times filters fs (scatter (filters.map fun x => decide (x = f)) out v)

/-- lightcurve_template_model.py:676-710 `compute_bandflux` (one filter per time). -/
noncomputable def templateBandflux (d : LcData) (t0 : ℝ) (times : List ℝ) (filters : List Name) : Except Err (List ℝ) :=
  if ¬ ∀ f ∈ npUnique filters, f ∈ d.curves.keys then .error .valueError
  else templateFluxLoop d (times.map (· - t0)) filters d.curves.keys (times.map fun _ => 0)

end LCL
