import Verif.Model.PassbandGroup

/-!
# Passbands shared between groups (`src/lightcurvelynx/astro_utils/passbands.py`)

A `PassbandGroup` keeps the `Passband` objects it is given, not copies of them
(passbands.py:88-91, 436): two groups built from one object hold the same object, and
`process_transmission_table(s)` changes it in place (passbands.py:1006-1026). Here passbands are cells
of a world and groups hold references to them; what a group shows at some moment is the
`PassbandGroup` of `Model/PassbandGroup.lean` read through the references.
-/

namespace LCL.PassbandShare
variable {K : Type} [Field K] [LinearOrder K]

/-- passbands.py:25-126: a group, its members by reference. -/
structure RefGroup (K : Type) where
  members : Dict Name Nat
  filterToName : Dict Name (List Name)
  waves : List K
  indices : Dict Name WaveIdx

/-- All passband objects and all groups of a program, in order of creation. -/
structure World (K : Type) where
  bands : List (Passband K)
  groups : List (RefGroup K)

/-- The dictionary `passbands` of a group, read through its references. -/
def deref (bands : List (Passband K)) : Dict Name Nat → Dict Name (Passband K)
  | [] => []
  | (n, r) :: rest => match bands[r]? with
    | some pb => (n, pb) :: deref bands rest
    | none => deref bands rest

/-- What a group shows: its attributes, with the members as they are now. -/
def seen (bands : List (Passband K)) (g : RefGroup K) : PassbandGroup K :=
  ⟨deref bands g.members, g.filterToName, g.waves, g.indices⟩

/-- passbands.py:440-451 `_update_internal_data`: reads the members, writes the three attributes. -/
def update (bands : List (Passband K)) (g : RefGroup K) : RefGroup K × Option Err :=
  let u := PassbandGroup.update (seen bands g)
  (⟨g.members, u.1.filterToName, u.1.waves, u.1.indices⟩, u.2)

/-- passbands.py:88-91: store the given objects under their full names. -/
def store (bands : List (Passband K)) (refs : List Nat) : Dict Name Nat :=
  refs.foldl (fun (d : Dict Name Nat) r => match bands[r]? with
    | some pb => Dict.set d pb.fullName r
    | none => d) []

/-- passbands.py:113-120: one step of the pruning loop. -/
def pruneStep (bands : List (Passband K)) (filters : List Name) (st : Dict Name Nat × List Name) (p : Name × Nat) :
    Dict Name Nat × List Name :=
  match bands[p.2]? with
  | none => st
  | some pb =>
    if p.1 ∈ filters then (st.1, st.2.filter (· ≠ p.1))
    else if pb.filterName ∈ filters then (st.1, st.2.filter (· ≠ pb.filterName))
    else (st.1.erase p.1, st.2)

/-- passbands.py:106-120. -/
def prune (bands : List (Passband K)) (all : Dict Name Nat) : Option (List Name) → Dict Name Nat × List Name
  | none => (all, [])
  | some fs => all.foldl (pruneStep bands fs) (all, fs)

/-- passbands.py:546-547: reprocess the objects in turn, stopping at the first error. -/
noncomputable def reprocessRefs [FloorRing K] (delta trim : Option K) :
    Dict Name Nat → List (Passband K) → List (Passband K) × Option Err
  | [], bands => (bands, none)
  | (_, r) :: rest, bands => match bands[r]? with
    | none => (bands, some .runtimeError)
    | some pb => match pb.reprocess delta trim with
      | (pb', some e) => (bands.set r pb', some e)
      | (pb', none) => reprocessRefs delta trim rest (bands.set r pb')

/-- The calls a program makes. Passbands and groups are named by their order of creation. -/
inductive Op (K : Type)
  /-- `Passband(table, survey, filter, delta_wave, trim_quantile, units)`. -/
  | passband (t : List (K × K)) (survey filter : Name) (delta trim : Option K) (units : String)
  /-- `PassbandGroup([pb, ...], filters=...)`. -/
  | group (refs : List Nat) (filters : Option (List Name))
  /-- `group.add_passband(pb)`. -/
  | add (g r : Nat)
  /-- `group.process_transmission_tables(delta_wave, trim_quantile)`. -/
  | process (g : Nat) (delta trim : Option K)
  /-- `pb.process_transmission_table(delta_wave, trim_quantile)`. -/
  | processOne (r : Nat) (delta trim : Option K)

/-- The effect of a call, and the exception it raises. A call that names a passband or group that does
not exist cannot be written in Python; here it does nothing and reports `runtimeError`. -/
noncomputable def step [FloorRing K] (W : World K) : Op K → World K × Option Err
  | .passband t survey filter delta trim units =>
    match Passband.init t survey filter delta trim units with
    | .error e => (W, some e)
    | .ok pb => ({ W with bands := W.bands ++ [pb] }, none)
  | .group refs filters =>
    if refs.any (fun r => decide (W.bands.length ≤ r)) then (W, some .runtimeError)
    else if refs = [] then (W, some .valueError)
    else
      let pruned := prune W.bands (store W.bands refs) filters
      if pruned.2 ≠ [] then (W, some .valueError)
      else match update W.bands ⟨pruned.1, [], [], []⟩ with
        | (g, none) => ({ W with groups := W.groups ++ [g] }, none)
        | (_, some e) => (W, some e)
  | .add i r =>
    match W.groups[i]?, W.bands[r]? with
    | some g, some pb =>
      let u := update W.bands { g with members := g.members.set pb.fullName r }
      ({ W with groups := W.groups.set i u.1 }, u.2)
    | _, _ => (W, some .runtimeError)
  | .process i delta trim =>
    match W.groups[i]? with
    | none => (W, some .runtimeError)
    | some g => match reprocessRefs delta trim g.members W.bands with
      | (bands, some e) => ({ W with bands := bands }, some e)
      | (bands, none) =>
        let u := update bands g
        ({ bands := bands, groups := W.groups.set i u.1 }, u.2)
  | .processOne r delta trim =>
    match W.bands[r]? with
    | none => (W, some .runtimeError)
    | some pb =>
      let p := pb.reprocess delta trim
      ({ W with bands := W.bands.set r p.1 }, p.2)

end LCL.PassbandShare
