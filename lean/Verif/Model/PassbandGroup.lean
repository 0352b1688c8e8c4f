import Verif.Model.Passband

/-!
# Model of `PassbandGroup` (`src/lightcurvelynx/astro_utils/passbands.py`, 25-614)

Passbands given as dictionaries of file parameters (`Passband.from_file`) are not modelled: every
given passband is a `Passband` object. Passbands are copied into the group; in Python they are shared,
and may be changed through another group or directly: see `Model/PassbandShare.lean`.
-/

namespace LCL
variable {K : Type} [Field K] [LinearOrder K]

/-- The value of an entry of `_in_band_wave_indices`: a slice, or an array of positions. -/
inductive WaveIdx
  | slice (start stop : Nat)
  | positions (l : List Nat)

/-- passbands.py:25-126: the attributes of a `PassbandGroup`. -/
structure PassbandGroup (K : Type) where
  passbands : Dict Name (Passband K)
  filterToName : Dict Name (List Name)
  waves : List K
  indices : Dict Name WaveIdx

/-- passbands.py:480-481: keep a sorted value when its gap to the previous sorted value (kept or not)
reaches the threshold. -/
def keepAfter (threshold prev : K) : List K → List K
  | [] => []
  | x :: l => if threshold ≤ x - prev then x :: keepAfter threshold x l else keepAfter threshold x l

/-- passbands.py:480-481 (the first gap is set to 1e8, above the threshold). -/
def keepGaps (threshold : K) : List K → List K
  | [] => []
  | x :: l => x :: keepAfter threshold x l

/-- passbands.py:471-481: the shared grid. -/
def PassbandGroup.gridOf (threshold : K) (pbs : Dict Name (Passband K)) : List K :=
  keepGaps threshold (((pbs.values.map (·.waves)).flatten).mergeSort (fun a b => decide (a ≤ b)))

/-- passbands.py:489-498: the index of one band (`waves[0]` of an empty band raises IndexError). -/
def PassbandGroup.indexOf (waves pw : List K) : Except Err WaveIdx :=
  match pw.head?, pw.getLast? with
  | some lo, some hi =>
    let lower := searchLeft waves lo
    let upper := searchLeft waves hi
    if (waves.take (upper + 1)).drop lower = pw then .ok (.slice lower (upper + 1))
    else .ok (.positions (pw.map (searchLeft waves)))
  | _, _ => .error .indexError

/-- passbands.py:485-499. -/
def PassbandGroup.indexAll (waves : List K) : Dict Name (Passband K) → Except Err (Dict Name WaveIdx)
  | [] => .ok []
  | (name, pb) :: rest =>
    match PassbandGroup.indexOf waves pb.waves with
    | .error e => .error e
    | .ok i => match PassbandGroup.indexAll waves rest with
      | .error e => .error e
      | .ok m => .ok ((name, i) :: m)

/-- passbands.py:443-449: one step of the filter-name map. -/
def PassbandGroup.addFilter (d : Dict Name (List Name)) (p : Name × Passband K) : Dict Name (List Name) :=
  match d.get? p.2.filterName with
  | some l => d.set p.2.filterName (l ++ [p.1])
  | none => d.set p.2.filterName [p.1]

/-- passbands.py:440-451 `_update_internal_data` (with the default threshold 1e-5 of `_update_waves`). -/
def PassbandGroup.update (g : PassbandGroup K) : PassbandGroup K × Option Err :=
  let ftn := g.passbands.foldl PassbandGroup.addFilter []
  let waves := PassbandGroup.gridOf (1 / 10 ^ 5) g.passbands
  match PassbandGroup.indexAll waves g.passbands with
  | .ok m => ({ g with filterToName := ftn, waves := waves, indices := m }, none)
  | .error e => ({ g with filterToName := ftn, waves := waves, indices := [] }, some e)

/-- passbands.py:113-120: one step of the pruning loop. -/
def PassbandGroup.pruneStep (filters : List Name) (st : Dict Name (Passband K) × List Name) (p : Name × Passband K) :
    Dict Name (Passband K) × List Name :=
  if p.1 ∈ filters then (st.1, st.2.filter (· ≠ p.1))
  else if p.2.filterName ∈ filters then (st.1, st.2.filter (· ≠ p.2.filterName))
  else (st.1.erase p.1, st.2)

/-- passbands.py:88-91: store the given passbands under their full names. -/
def PassbandGroup.store (given : List (Passband K)) : Dict Name (Passband K) :=
  given.foldl (fun (d : Dict Name (Passband K)) pb => Dict.set d pb.fullName pb) []

/-- passbands.py:106-120: the remaining passbands and the filters not found. -/
def PassbandGroup.prune (all : Dict Name (Passband K)) : Option (List Name) → Dict Name (Passband K) × List Name
  | none => (all, [])
  | some fs => all.foldl (PassbandGroup.pruneStep fs) (all, fs)

/-- passbands.py:49-126 `__init__` from a list of `Passband` objects. -/
def PassbandGroup.init (given : List (Passband K)) (filters : Option (List Name)) : Except Err (PassbandGroup K) :=
  if given = [] then .error .valueError
  else
    let pruned := PassbandGroup.prune (PassbandGroup.store given) filters
    if pruned.2 ≠ [] then .error .valueError
    else match PassbandGroup.update ⟨pruned.1, [], [], []⟩ with
      | (g, none) => .ok g
      | (_, some e) => .error e

/-- passbands.py:429-438 `add_passband`. -/
def PassbandGroup.add (g : PassbandGroup K) (pb : Passband K) : PassbandGroup K × Option Err :=
  PassbandGroup.update { g with passbands := g.passbands.set pb.fullName pb }

/-- passbands.py:1006-1026: reprocess one passband in place (unchanged when it raises). -/
noncomputable def Passband.reprocess [FloorRing K] (pb : Passband K) (delta trim : Option K) :
    Passband K × Option Err :=
  match Passband.process pb.loaded delta trim with
  | .error e => (pb, some e)
  | .ok t => ({ pb with table := t, waves := t.map (·.1), deltaWave := delta }, none)

/-- passbands.py:546-547: reprocess in turn, stopping at the first error. -/
noncomputable def PassbandGroup.reprocessAll [FloorRing K] (delta trim : Option K) :
    Dict Name (Passband K) → Dict Name (Passband K) × Option Err
  | [] => ([], none)
  | (n, pb) :: rest =>
    match pb.reprocess delta trim with
    | (pb', some e) => ((n, pb') :: rest, some e)
    | (pb', none) =>
      let r := PassbandGroup.reprocessAll delta trim rest
      ((n, pb') :: r.1, r.2)

/-- passbands.py:535-549 `process_transmission_tables`. -/
noncomputable def PassbandGroup.process [FloorRing K] (g : PassbandGroup K) (delta trim : Option K) :
    PassbandGroup K × Option Err :=
  match PassbandGroup.reprocessAll delta trim g.passbands with
  | (pbs, some e) => ({ g with passbands := pbs }, some e)
  | (pbs, none) => PassbandGroup.update { g with passbands := pbs }

/-- passbands.py:135-150 `__getitem__`. -/
def PassbandGroup.getItem (g : PassbandGroup K) (key : Name) : Except Err (Passband K) :=
  match g.passbands.get? key with
  | some pb => .ok pb
  | none => match g.filterToName.get? key with
    | none => .error .keyError
    | some l =>
      if l.length > 1 then .error .keyError
      else match g.passbands.get? (l.headD []) with
        | some pb => .ok pb
        | none => .error .keyError

/-- passbands.py:152-157 `__contains__`. -/
def PassbandGroup.contains (g : PassbandGroup K) (key : Name) : Bool :=
  g.passbands.has key || g.filterToName.has key

/-- passbands.py:515-533 `mask_by_filter`. -/
def PassbandGroup.maskByFilter (g : PassbandGroup K) (filters : List Name) : List Bool :=
  filters.map fun f => decide (f ∈ g.passbands.keys) || decide (f ∈ g.filterToName.keys)

/-- `row[i]`. -/
def pick (row : List K) (i : Nat) : Except Err K :=
  match row[i]? with
  | some x => .ok x
  | none => .error .indexError

/-- passbands.py:581: `row[wave_indices]`. -/
def WaveIdx.select : WaveIdx → List K → Except Err (List K)
  | .slice a b, row => .ok ((row.take b).drop a)
  | .positions l, row => l.mapM (pick row)

/-- passbands.py:551-584 `fluxes_to_bandflux`. -/
def PassbandGroup.bandflux (g : PassbandGroup K) (m : List (List K)) (filter : Name) : Except Err (List K) :=
  let name := match g.passbands.get? filter with
    | some _ => some filter
    | none => (g.filterToName.get? filter).map (·.headD [])
  match name with
  | none => .error .valueError
  | some n => match g.passbands.get? n, g.indices.get? n with
    | some pb, some idx => match m.mapM (WaveIdx.select idx) with
      | .error e => .error e
      | .ok rows => pb.bandflux rows
    | _, _ => .error .keyError

/-- passbands.py:611-613: the loop. -/
def PassbandGroup.collect (g : PassbandGroup K) (m : List (List K)) : List Name → Except Err (Dict Name (List K))
  | [] => .ok []
  | n :: rest => match g.bandflux m n with
    | .error e => .error e
    | .ok v => match PassbandGroup.collect g m rest with
      | .error e => .error e
      | .ok d => .ok ((n, v) :: d)

/-- passbands.py:586-614 `fluxes_to_bandfluxes`. -/
def PassbandGroup.bandfluxes (g : PassbandGroup K) (m : List (List K)) : Except Err (Dict Name (List K)) :=
  match m with
  | [] => .error .valueError
  | row :: _ =>
    if row = [] ∨ g.waves.length ≠ row.length then .error .valueError
    else PassbandGroup.collect g m g.passbands.keys

end LCL
