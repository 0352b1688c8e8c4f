import Verif.Model.MultiObject

/-!
# Specification vocabulary for physical models (C31-C36)
-/

namespace LCL.PhysSpec
open LCL
variable {K : Type} [Field K] [LinearOrder K]

/-- A compute_sed that gives, for every time and wavelength, the value `F t w`, whatever else is asked for. -/
def Pointwise {V W R : Type} (m : SEDModel V W R K) (st : SState K) (F : K → K → K) : Prop :=
  ∀ kw times waves, m.computeSed kw st times waves = .ok (times.map fun t => waves.map (F t))

/-- An extrapolator that gives, for every edge flux `f` and query wavelength `w`, the value `G edge f w`. -/
def PointwiseExt (ex : K → List K → List K → Mat K) (G : K → K → K → K) : Prop :=
  ∀ edge col query, ex edge col query = col.map fun f => query.map (G edge f)

/-- The curve `F` on `[lo, hi]` (a missing bound is infinite), continued outside by `G edge (F edge)`. -/
def stretch (lo hi : Option K) (F : K → K) (G : K → K → K → K) (w : K) : K :=
  match lo.filter (fun l => decide (w < l)), hi.filter (fun h => decide (h < w)) with
  | some l, _ => G l (F l) w
  | none, some h => G h (F h) w
  | none, none => F w

/-- The effects `es`, each applied once to the result of the previous one, in list order, lead from the
flux and random state `x` to `y`. -/
inductive Applied {V R : Type} (p : Params K) (times waves : List K) :
    List (Effect V R K) → Mat K × R → Mat K × R → Prop
  | nil (x) : Applied p times waves [] x x
  | cons {e es x y z} : e.apply p times waves x.2 x.1 = .ok y → Applied p times waves es y z →
      Applied p times waves (e :: es) x z

/-- The same for bandfluxes. -/
inductive AppliedBand {V R : Type} (p : Params K) (times : List K) (filters : List Name) :
    List (Effect V R K) → List K × R → List K × R → Prop
  | nil (x) : AppliedBand p times filters [] x x
  | cons {e es x y z} : e.applyBand p times filters x.2 x.1 = .ok y → AppliedBand p times filters es y z →
      AppliedBand p times filters (e :: es) x z

/-- `some (z, t0)` when the model must be redshifted: the flag is set, the redshift is a non-zero number and
t0 is a number; `none` when it must not be: the flag is unset or the redshift is 0. -/
inductive Frame (flag : Bool) (p : Params K) : Option (K × K) → Prop
  | off : flag = false → Frame flag p none
  | zero : p.get? redshiftKey = some (.num 0) → Frame flag p none
  | shifted {z t0} : flag = true → z ≠ 0 → p.get? redshiftKey = some (.num z) → p.get? t0Key = some (.num t0) →
      Frame flag p (some (z, t0))

/-- The time in the frame of the source. -/
def frameTime : Option (K × K) → K → K
  | none, t => t
  | some (z, t0), t => t0 + (t - t0) / (1 + z)

/-- The wavelength in the frame of the source. -/
def frameWave : Option (K × K) → K → K
  | none, w => w
  | some (z, _), w => w / (1 + z)

/-- The factor from the flux of the source to the observed flux. -/
def frameFactor : Option (K × K) → K
  | none => 1
  | some (z, _) => 1 + z

/-! ### Computations that treat the times one by one and draw no random numbers -/

/-- compute_sed treats the times one by one: for each list of wavelengths it gives each time its own row, or
always raises. -/
def RowSed {V W R : Type} (m : SEDModel V W R K) (st : SState K) : Prop :=
  ∀ kw ws, (∃ row : K → List K, (∀ t, (row t).length = ws.length) ∧
      ∀ ts, m.computeSed kw st ts ws = .ok (ts.map row)) ∨
    ∃ e, ∀ ts, m.computeSed kw st ts ws = .error e

/-- So does an extrapolator. -/
def RowExt (ex : K → List K → List K → Mat K) : Prop :=
  ∃ G : K → K → List K → List K, (∀ l f qs, (G l f qs).length = qs.length) ∧
    ∀ l col qs, ex l col qs = col.map fun f => G l f qs

/-- So does an effect. -/
def RowEffect {V R : Type} (e : Effect V R K) : Prop :=
  ∀ p ws, (∃ h : K → List K → List K, (∀ t row, (h t row).length = row.length) ∧
      ∀ ts r (rowf : K → List K), e.apply p ts ws r (ts.map rowf) = .ok (ts.map fun t => h t (rowf t), r)) ∨
    ∃ err, ∀ ts r a, e.apply p ts ws r a = .error err

/-- So does a whole evaluation, for a given random state. -/
def RowWise {R : Type} (evalSed : List K → List K → R → Except Err (Mat K × R)) (r : R) : Prop :=
  ∀ ws, (∃ row : K → List K, (∀ t, (row t).length = ws.length) ∧ ∀ ts, evalSed ts ws r = .ok (ts.map row, r)) ∨
    ∃ e, ∀ ts, evalSed ts ws r = .error e

/-! ### Composite models -/

/-- A T x N array. -/
def Shape (T N : Nat) (a : Mat K) : Prop := a.length = T ∧ ∀ row ∈ a, row.length = N

/-- Entry (i, j), 0 outside the array. -/
def entry (a : Mat K) (i j : Nat) : K := (a.getD i []).getD j 0

/-- The objects are evaluated once each, in list order, the random state being handed on. -/
inductive InOrder {β : Type} {R ω : Type} (eval : ω → R → Except Err (β × R)) : List ω → R → List β → R → Prop
  | nil (r) : InOrder eval [] r [] r
  | cons {o os r a r' as r''} : eval o r = .ok (a, r') → InOrder eval os r' as r'' → InOrder eval (o :: os) r (a :: as) r''

end LCL.PhysSpec
