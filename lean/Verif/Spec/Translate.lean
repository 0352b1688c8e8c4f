import Verif.Model.EndToEnd

/-!
# Specification: moving everything in time

`later Δ` adds Δ (days) to every time of a list; `laterTable`, `laterState` and `laterResult` do the same to the times of an observing table, to the reference time of a sampled
object and to the reported times of a simulation, and change nothing else.
-/

namespace LCL.Translate
open LCL

/-- Times Δ days later. -/
def later (Δ : ℝ) (ts : List ℝ) : List ℝ := ts.map fun t => t + Δ

/-- A dictionary with the entry of one key changed. -/
def mapAt {ν : Type} (f : ν → ν) (key : Name) (d : Dict Name ν) : Dict Name ν := d.map fun q => (q.1, if q.1 = key then f q.2 else q.2)

/-- A cell with a number, moved. -/
def laterCell (Δ : ℝ) : Cell → Cell
  | .num x => .num (x + Δ)
  | .str s => .str s

/-- The same table with every visit Δ days later: only the column of times changes. -/
def laterTable (Δ : ℝ) (t : ObsTable) : ObsTable :=
  ⟨mapAt (fun c => c.map (laterCell Δ)) "time".toList t.cols, t.labels, t.invColmap, t.survey, t.filters, t.tree, t.footprint⟩

/-- The same object with its reference time Δ days later; `move` changes the sampled parameters. -/
def laterState (Δ : ℝ) (move : SState ℝ → SState ℝ) (s : SimState) : SimState := ⟨move s.state, s.ra, s.dec, s.t0.map fun x => x + Δ⟩

/-- A cell of the nested table holding a number, moved. -/
def laterNCell (Δ : ℝ) : NCell → NCell
  | .num x => .num (x + Δ)
  | c => c

/-- The same nested table with every reported time (column "mjd") Δ days later. -/
def laterNested (Δ : ℝ) (nd : Nested) : Nested := ⟨mapAt (fun c => c.map (laterNCell Δ)) "mjd".toList nd.cols, nd.index⟩

/-- The same result with every reported time Δ days later. -/
def laterResult (Δ : ℝ) (r : SimResult) : SimResult := ⟨r.ids, r.ra, r.dec, r.nobs, laterNested Δ r.nested⟩

/-- A column other than the times of the table: its name neither is "time" nor stands for it. -/
def NotTime (t : ObsTable) (c : Name) : Prop := c ≠ "time".toList ∧ (t.cols.get? c = none → t.invColmap.get? c ≠ some "time".toList)

/-! ### Models whose light does not depend on the calendar -/

/-- A sampled number, moved (None and strings stay). -/
def laterVal (Δ : ℝ) : PVal ℝ → PVal ℝ
  | .num x => .num (x + Δ)
  | v => v

/-- The parameters of a node with those named in `keys` moved. -/
def laterParams (Δ : ℝ) (keys : List Name) (p : Params ℝ) : Params ℝ := p.map fun q => (q.1, if q.1 ∈ keys then laterVal Δ q.2 else q.2)

/-- The sampled parameters of all nodes, with those of one node named in `keys` moved. -/
def laterNode (Δ : ℝ) (node : Name) (keys : List Name) (st : SState ℝ) : SState ℝ := mapAt (laterParams Δ keys) node st

/-- An effect that knows no calendar: moving the times and the time parameters `keys` together changes nothing. -/
def AnchoredEffect {V R : Type} (keys : List Name) (e : Effect V R ℝ) : Prop :=
  ∀ Δ p ts ws r a, e.apply (laterParams Δ keys p) (later Δ ts) ws r a = e.apply p ts ws r a

/-- A model that knows no calendar, for an object with the given sampled parameters: moving the queried times and the model's time parameters `keys` (with t0 among them, the redshift not) together changes neither its
spectrum nor its wavelength range nor its effects. -/
structure Anchored {V W R : Type} (keys : List Name) (m : SEDModel V W R ℝ) (st : SState ℝ) : Prop where
  t0 : t0Key ∈ keys
  redshift : redshiftKey ∉ keys
  sed : ∀ Δ kw ts ws, m.computeSed kw (laterNode Δ m.nodeString keys st) (later Δ ts) ws = m.computeSed kw st ts ws
  lo : ∀ Δ, m.minwave (laterNode Δ m.nodeString keys st) = m.minwave st
  hi : ∀ Δ, m.maxwave (laterNode Δ m.nodeString keys st) = m.maxwave st
  rest : ∀ e ∈ m.restEffects, AnchoredEffect keys e
  obs : ∀ e ∈ m.obsEffects, AnchoredEffect keys e

/-- The survey with every visit later. -/
def laterSurveyArg (Δ : ℝ) (a : EndToEnd.SurveyArg) : EndToEnd.SurveyArg := ⟨a.kind, laterTable Δ a.table, a.group⟩

end LCL.Translate
