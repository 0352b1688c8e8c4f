import Verif.Model.Persist
import Verif.Model.Photometry
import Verif.Model.Samplers3

/-!
# Model of the random surveys

`create_random_opsim`, `opsim_add_random_data` (obstable/opsim.py:189-251) and `create_random_ztf_obs_data` (obstable/ztf_obstable.py:187-229), with
the constructors of `OpSim` and `ZTFObsTable`. `rng.uniform(lo, hi)` is `lo + (hi - lo) * rng.random()`. `rng.choice` of a list of `k` strings
takes the entries at indices below `k`. The date "2018-03-25 06:04:40.000" becomes the number `mjd` the astropy conversion gives for it.
-/

namespace LCL.RandomSurvey
open LCL ObsTable Real

/-- numpy's generator: unit draws, indices, and the states that seeds give. -/
structure Rng (ρ : Type) where
  unit : UnitGen ρ ℝ
  pick : ρ → Nat → Nat → ρ × List Nat
  pick_length : ∀ r k n, (pick r k n).2.length = n
  pick_lt : ∀ r k n, 0 < k → ∀ i ∈ (pick r k n).2, i < k
  seeded : Int → ρ

/-- zeropoint.py:23-30. -/
noncomputable def lsstZp : Dict Name ZNum :=
  [("u".toList, .flt 26.524), ("g".toList, .flt 28.508), ("r".toList, .flt 28.361), ("i".toList, .flt 28.171), ("z".toList, .flt 27.782),
   ("y".toList, .flt 26.818)]

/-- zeropoint.py:8-15. -/
noncomputable def lsstExt : Dict Name ZNum :=
  [("u".toList, .flt (-0.458)), ("g".toList, .flt (-0.208)), ("r".toList, .flt (-0.122)), ("i".toList, .flt (-0.074)),
   ("z".toList, .flt (-0.057)), ("y".toList, .flt (-0.095))]

/-- A dictionary of numbers as a survey value. -/
def asSurvey (d : Dict Name ZNum) : SVal := .perFilter (d.map fun q => (q.1, .num q.2.val))

/-- opsim.py:64-117: `OpSim`, with its default survey values (opsim.py:80-89; constants at opsim.py:23-40). -/
noncomputable def opsimClass : TableClass :=
  { required := ["ra".toList, "dec".toList, "time".toList]
    defaults :=
      [("dark_current".toList, .num 0.2), ("ext_coeff".toList, asSurvey lsstExt), ("pixel_scale".toList, .num 0.2),
       ("radius".toList, .num 1.75), ("read_noise".toList, .num 8.8), ("zp_per_sec".toList, asSurvey lsstZp),
       ("survey_name".toList, .text "LSST".toList)]
    colmap :=
      [("airmass".toList, "airmass".toList), ("dec".toList, "fieldDec".toList), ("exptime".toList, "visitExposureTime".toList),
       ("filter".toList, "filter".toList), ("ra".toList, "fieldRA".toList), ("time".toList, "observationStartMJD".toList),
       ("zp".toList, "zp_nJy".toList), ("seeing".toList, "seeingFwhmEff".toList), ("skybrightness".toList, "skyBrightness".toList),
       ("nexposure".toList, "numExposures".toList)]
    assignZp := opsimAssignZp lsstZp lsstExt }

/-- `rng.uniform(lo, hi)` from the unit draw. -/
noncomputable def between (lo hi u : ℝ) : ℝ := lo + (hi - lo) * u

/-- opsim.py:213, ztf_obstable.py:208: the right ascension of a draw. -/
noncomputable def raOf (u : ℝ) : ℝ := degrees (between 0 (2 * π) u)

/-- opsim.py:214, ztf_obstable.py:209: the declination of a draw. -/
noncomputable def decOf (v : ℝ) : ℝ := degrees (arccos (2 * between 0 1 v - 1) - π / 2)

/-- `rng.choice(names)`. -/
def named (names : List Name) (i : Nat) : Cell := .str (names.getD i [])

/-- opsim.py:218. -/
def opsimBands : List Name := ["u".toList, "g".toList, "r".toList, "i".toList, "z".toList, "y".toList]

/-- ztf_obstable.py:215. -/
def ztfBands : List Name := ["g".toList, "r".toList, "i".toList]

/-- The state of the generator: seeded, or from the operating system's entropy. -/
def startState {ρ : Type} (G : Rng ρ) (entropy : ρ) : Option Int → ρ
  | none => entropy
  | some k => G.seeded k

/-- opsim.py:213-228: the columns. -/
noncomputable def opsimCols {ρ : Type} (G : Rng ρ) (r : ρ) (n : Nat) : Dict Name (List Cell) :=
  let d1 := G.unit.draw r n
  let d2 := G.unit.draw d1.1 n
  let d3 := G.unit.draw d2.1 n
  let d4 := G.pick d3.1 opsimBands.length n
  [("observationStartMJD".toList, (List.range n).map fun (i : Nat) => Cell.num (0.05 * (i : ℝ))),
   ("fieldRA".toList, d1.2.map fun u => Cell.num (raOf u)),
   ("fieldDec".toList, d2.2.map fun v => Cell.num (decOf v)),
   ("airmass".toList, d3.2.map fun u => Cell.num (between 1.3 1.7 u)),
   ("filter".toList, d4.2.map (named opsimBands)),
   ("visitExposureTime".toList, (List.range n).map fun _ => Cell.num (29 * 1))]

/-- The index of a frame made from a dictionary of arrays. -/
def freshLabels (n : Nat) : List Int := (List.range n).map fun (i : Nat) => (i : Int)

/-- opsim.py:189-231 `create_random_opsim`. -/
noncomputable def createRandomOpsim {ρ : Type} (G : Rng ρ) (entropy : ρ) (numObs : Int) (seed : Option Int) : Except Err ObsTable :=
  if numObs ≤ 0 then .error .valueError
  else construct opsimClass ⟨opsimCols G (startState G entropy seed) numObs.toNat, freshLabels numObs.toNat, none⟩ none [] none

/-- opsim.py:234-251 `opsim_add_random_data`: the draws are those of numpy's global generator, in the state `r`. -/
noncomputable def addRandomData {ρ : Type} (G : Rng ρ) (r : ρ) (t : ObsTable) (colname : Name) (lo hi : ℝ) : Except Err ObsTable :=
  t.addColumn colname (.column ((G.unit.draw r t.len).2.map fun u => Cell.num (between lo hi u)))

/-- ztf_obstable.py:208-228: the columns. -/
noncomputable def ztfCols {ρ : Type} (G : Rng ρ) (r : ρ) (n : Nat) : Dict Name (List Cell) :=
  let d1 := G.unit.draw r n
  let d2 := G.unit.draw d1.1 n
  let d3 := G.unit.draw d2.1 n
  let d4 := G.unit.draw d3.1 n
  let d5 := G.unit.draw d4.1 n
  let d6 := G.pick d5.1 ztfBands.length n
  [("obsdate".toList, (List.range n).map fun _ => Cell.str "2018-03-25 06:04:40.000".toList),
   ("ra".toList, d1.2.map fun u => Cell.num (raOf u)),
   ("dec".toList, d2.2.map fun v => Cell.num (decOf v)),
   ("maglim".toList, d3.2.map fun u => Cell.num (between 19 21 u)),
   ("scibckgnd".toList, d4.2.map fun u => Cell.num (between 100 200 u)),
   ("fwhm".toList, d5.2.map fun u => Cell.num (between 1 3 u)),
   ("filter".toList, d6.2.map (named ztfBands)),
   ("exptime".toList, (List.range n).map fun _ => Cell.num (30 * 1))]

/-- ztf_obstable.py:187-229 `create_random_ztf_obs_data`. -/
noncomputable def createRandomZtf {ρ : Type} (G : Rng ρ) (entropy : ρ) (numObs : Int) (seed : Option Int) : Except Err Frame :=
  if numObs ≤ 0 then .error .valueError
  else .ok ⟨ztfCols G (startState G entropy seed) numObs.toNat, freshLabels numObs.toNat, none⟩

/-- ztf_obstable.py:49-72: `ZTFObsTable` (constants at lines 14-26). -/
noncomputable def ztfClass : TableClass :=
  { required := baseRequired
    defaults :=
      [("dark_current".toList, .num 0), ("gain".toList, .num 6.2), ("pixel_scale".toList, .num 1.01), ("radius".toList, .num 2.735),
       ("read_noise".toList, .num 8), ("survey_name".toList, .text "ZTF".toList)]
    colmap :=
      [("maglim".toList, "maglim".toList), ("sky".toList, "scibckgnd".toList), ("fwhm".toList, "fwhm".toList), ("dec".toList, "dec".toList),
       ("exptime".toList, "exptime".toList), ("filter".toList, "filter".toList), ("ra".toList, "ra".toList), ("time".toList, "obsmjd".toList),
       ("zp".toList, "zp_nJy".toList)]
    assignZp := ztfAssignZp }

/-- ztf_obstable.py:76-81: a column `obsmjd` made from the dates. `mjd` is astropy's conversion of a date (ValueError if it is none). -/
noncomputable def withMjd (mjd : Name → Except Err ℝ) (f : Frame) : Except Err Frame :=
  match f.cols.get? "obsdate".toList with
  | none => .ok f
  | some dates => if f.cols.has "obsmjd".toList then .ok f
    else match dates.mapM Cell.str? with
      | .error e => .error e
      | .ok names => match names.mapM mjd with
        | .error e => .error e
        | .ok ts => .ok { f with cols := f.cols.set "obsmjd".toList (ts.map Cell.num) }

/-- ztf_obstable.py:73-83 `ZTFObsTable(table, colmap, **kwargs)`. -/
noncomputable def ztfInit (mjd : Name → Except Err ℝ) (f : Frame) (colmap : Option (Dict Name Name)) (kw : Dict Name SVal)
    (footprint : Option (ℝ → ℝ → ℝ → ℝ → Option ℝ → Bool)) : Except Err ObsTable :=
  match withMjd mjd f with
  | .error e => .error e
  | .ok f => construct ztfClass f colmap kw footprint

end LCL.RandomSurvey
