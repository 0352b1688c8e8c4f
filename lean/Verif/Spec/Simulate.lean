import Verif.Model.Simulate
import Verif.Spec.ObsTable

/-!
# Specification vocabulary for the simulation (C40, C41)
-/

namespace LCL.SimSpec
open LCL LCL.ObsSpec

/-- Lower end of the time window of an object: `t0 - before`, unbounded when the window, its lower offset or
t0 is None. -/
def winLo : Option (List (Option ℝ)) → Option ℝ → Option ℝ
  | some [some b, _], some t => some (t - b)
  | _, _ => none

/-- Upper end: `t0 + after`. -/
def winHi : Option (List (Option ℝ)) → Option ℝ → Option ℝ
  | some [_, some a], some t => some (t + a)
  | _, _ => none

/-- The entry of a named column (under its standard or original name) in row `i`. -/
def entryOf (t : ObsTable) (name : Name) (i : Nat) : Option Cell :=
  match t.getItem name with
  | .ok c => c[i]?
  | .error _ => none

/-- The data of one object in one survey, one entry of each list per observation. -/
structure Block where
  rows : List Nat
  times : List ℝ
  filters : List Name
  perfect : List ℝ
  err : List ℝ
  flux : List ℝ

/-- `b` is the data of the rows `b.rows` of survey `s` for an object in state `st`: times and filters are those
of the rows, the noise-free fluxes are the model's for exactly these times and filters, the errors are the
survey's for these fluxes and rows, the fluxes are these with noise of that size. The random state goes from
`r` to `r'`. -/
def BlockOf {R : Type} (noise : List ℝ → List ℝ → R → Except Err (List ℝ × R)) (s : Survey R) (st : SState ℝ) (b : Block)
    (r r' : R) : Prop :=
  b.rows.map (entryOf s.table "time".toList) = b.times.map (fun t => some (.num t)) ∧
  b.rows.map (entryOf s.table "filter".toList) = b.filters.map (fun f => some (.str f)) ∧
  ∃ r1, s.eval b.times b.filters st r = .ok (b.perfect, r1) ∧ s.error b.perfect b.rows = .ok b.err ∧
    noise b.perfect b.err r1 = .ok (b.flux, r')

/-- The surveys are simulated in order. -/
inductive SurveyBlocks {R : Type} (noise : List ℝ → List ℝ → R → Except Err (List ℝ × R)) (st : SState ℝ) :
    List (Survey R) → R → List Block → R → Prop
  | nil (r) : SurveyBlocks noise st [] r [] r
  | cons {s ss r b r1 bs r2} : BlockOf noise s st b r r1 → SurveyBlocks noise st ss r1 bs r2 →
      SurveyBlocks noise st (s :: ss) r (b :: bs) r2

/-- The objects are simulated in order, each in all surveys. -/
inductive ObjectBlocks {R : Type} (noise : List ℝ → List ℝ → R → Except Err (List ℝ × R)) (surveys : List (Survey R)) :
    List SimState → R → List (List Block) → R → Prop
  | nil (r) : ObjectBlocks noise surveys [] r [] r
  | cons {s ss r bs r1 bss r2} : SurveyBlocks noise s.state surveys r bs r1 → ObjectBlocks noise surveys ss r1 bss r2 →
      ObjectBlocks noise surveys (s :: ss) r (bs :: bss) r2

/-- What a block contributes to a column of the lightcurve, for survey number `j`. -/
def Block.column {R : Type} (s : Survey R) (j : Nat) (b : Block) (c : Name) : List NCell :=
  if c = "mjd".toList then b.times.map .num
  else if c = "filter".toList then b.filters.map .text
  else if c = "flux_perfect".toList then b.perfect.map .num
  else if c = "flux".toList then b.flux.map .num
  else if c = "fluxerr".toList then b.err.map .num
  else if c = "survey_idx".toList then b.rows.map (fun _ => .survey j)
  else if s.table.contains c then b.rows.map (fun i => match entryOf s.table c i with
    | some x => .cell x
    | none => .missing)
  else b.rows.map (fun _ => .missing)

/-- The column of an object over all surveys, in survey order starting with number `j`. -/
def surveyColumns {R : Type} : Nat → List (Survey R) → List Block → Name → List NCell
  | j, s :: ss, b :: bs, c => b.column s j c ++ surveyColumns (j + 1) ss bs c
  | _, _, _, _ => []

/-- The number of observations of an object over all surveys. -/
def nobsOf (bs : List Block) : Nat := (bs.map fun b => b.rows.length).sum

/-- The rows of an object in a survey after the optional mask. -/
def usedRows (mask : Option (List ℝ → SState ℝ → List Bool)) (st : SState ℝ) (matched : List Nat) (times : List ℝ) : List Nat :=
  match mask with
  | none => matched
  | some f => keep (f times st) matched

/-- Every block has as many fluxes and errors as rows. -/
def Shaped {R : Type} (noise : List ℝ → List ℝ → R → Except Err (List ℝ × R)) (surveys : List (Survey R)) : Prop :=
  (∀ s ∈ surveys, ∀ ts fs st r out, s.eval ts fs st r = .ok out → out.1.length = ts.length) ∧
  (∀ s ∈ surveys, ∀ p rows e, s.error p rows = .ok e → e.length = p.length) ∧
  ∀ p e r out, noise p e r = .ok out → out.1.length = p.length

end LCL.SimSpec
