import Verif.Lemmas.PassbandShare
import Verif.Model.Physical

/-!
# Property C130: passbands shared between groups
-/

namespace LCL.PassbandShareProps
open LCL LCL.PassbandShare LCL.PassbandShareSpec LCL.PassbandShareLemmas LCL.PassbandGroupProps
variable {K : Type} [Field K] [LinearOrder K] [IsStrictOrderedRing K] [FloorRing K]

/-! ## The invariant -/

/-- The passband's table is its loaded table, processed. -/
def Processed (pb : Passband K) : Prop :=
  ∃ trim, Passband.process pb.loaded pb.deltaWave trim = .ok pb.table

/-- What reprocessing keeps. -/
def Kept (a b : Passband K) : Prop :=
  b.fullName = a.fullName ∧ b.filterName = a.filterName ∧ b.loaded = a.loaded ∧
    ((Usable a ∧ Processed a) → Usable b ∧ Processed b)

theorem kept_refl (a : Passband K) : Kept a a := ⟨rfl, rfl, rfl, id⟩

theorem kept_trans (a b c : Passband K) (h1 : Kept a b) (h2 : Kept b c) : Kept a c :=
  ⟨h2.1.trans h1.1, h2.2.1.trans h1.2.1, h2.2.2.1.trans h1.2.2.1, fun h => h2.2.2.2 (h1.2.2.2 h)⟩

theorem kept_reprocess (delta q : Option K) (a : Passband K) : Kept a (a.reprocess delta q).1 := by
  unfold Passband.reprocess
  split
  · exact kept_refl a
  · rename_i t ht
    refine ⟨rfl, rfl, rfl, fun h => ?_⟩
    obtain ⟨u, _⟩ := h
    exact ⟨⟨(process_sorted u.2.2.1 ht).1, (process_sorted u.2.2.1 ht).2, u.2.2.1, rfl⟩, q, ht⟩

theorem init_processed {t : List (K × K)} {survey f : Name} {delta q : Option K} {units : String} {pb : Passband K}
    (h : Passband.init t survey f delta q units = .ok pb) : Processed pb := by
  unfold Passband.init at h
  split at h
  · cases h
  · split at h
    · cases h
    · split at h
      · cases h
      · rename_i h2
        cases h
        exact ⟨q, h2⟩

/-- A group of the world: its members are filed under their own names, and so is its filter map. -/
def GroupOk (bands : List (Passband K)) (g : RefGroup K) : Prop :=
  Named bands g.members ∧ g.filterToName = (deref bands g.members).foldl PassbandGroup.addFilter []

structure Inv (W : World K) : Prop where
  bands : ∀ (r : Nat) pb, W.bands[r]? = some pb → Usable pb ∧ Processed pb
  groups : ∀ (i : Nat) g, W.groups[i]? = some g → GroupOk W.bands g

/-- The second list has the passbands of the first, possibly reprocessed, and perhaps more. -/
def Later (a b : List (Passband K)) : Prop := ∀ (r : Nat) pb, a[r]? = some pb → ∃ pb', b[r]? = some pb' ∧ Kept pb pb'

omit [LinearOrder K] [IsStrictOrderedRing K] [FloorRing K] [Field K] in
theorem filters_congr {f : Name → Name → Name × Name} : ∀ {a b : Dict Name (Passband K)} (_ : a.map (fun p => (p.1, p.2.filterName)) = b.map (fun p => (p.1, p.2.filterName)))
    (d : Dict Name (List Name)), a.foldl PassbandGroup.addFilter d = b.foldl PassbandGroup.addFilter d
  | [], [], _, _ => rfl
  | [], _ :: _, h, _ => by simp at h
  | _ :: _, [], h, _ => by simp at h
  | p :: a, q :: b, h, d => by
    simp only [List.map_cons, List.cons.injEq, Prod.mk.injEq] at h
    obtain ⟨⟨h1, h2⟩, h3⟩ := h
    rw [List.foldl_cons, List.foldl_cons]
    have : PassbandGroup.addFilter d p = PassbandGroup.addFilter d q := by
      unfold PassbandGroup.addFilter
      rw [h1, h2]
    rw [this]
    exact filters_congr (f := f) h3 _

theorem deref_later {a b : List (Passband K)} (h : Later a b) : ∀ {d : Dict Name Nat}, Valid a d →
    (deref a d).map (fun p => (p.1, p.2.filterName)) = (deref b d).map (fun p => (p.1, p.2.filterName))
  | [], _ => rfl
  | (n, r) :: d, hv => by
    obtain ⟨pb, hp⟩ := hv n r (by simp)
    obtain ⟨pb', hp', k⟩ := h r pb hp
    rw [deref_cons hp, deref_cons hp', List.map_cons, List.map_cons, deref_later h (valid_tail hv), k.2.1]

theorem groupOk_later {a b : List (Passband K)} (h : Later a b) {g : RefGroup K} (hg : GroupOk a g) : GroupOk b g := by
  refine ⟨⟨hg.1.1, fun n r hm => ?_⟩, ?_⟩
  · obtain ⟨pb, h1, h2⟩ := hg.1.2 n r hm
    obtain ⟨pb', h3, k⟩ := h r pb h1
    exact ⟨pb', h3, k.1.trans h2⟩
  · rw [hg.2]
    exact filters_congr (f := fun a b => (a, b)) (deref_later h hg.1.valid) _

theorem good_bands {a b : List (Passband K)} (h : Later a b) (hl : b.length = a.length)
    (ha : ∀ (r : Nat) pb, a[r]? = some pb → Usable pb ∧ Processed pb) : ∀ (r : Nat) pb, b[r]? = some pb → Usable pb ∧ Processed pb := by
  intro r pb hp
  have hlt : r < a.length := by
    rcases Nat.lt_or_ge r a.length with h' | h'
    · exact h'
    · rw [List.getElem?_eq_none (by omega)] at hp; cases hp
  obtain ⟨pb', h1, k⟩ := h r a[r] (List.getElem?_eq_getElem hlt)
  rw [hp] at h1; cases h1
  exact k.2.2.2 (ha r _ (List.getElem?_eq_getElem hlt))

/-! ## `_update_internal_data` -/

omit [IsStrictOrderedRing K] [FloorRing K] in
theorem indexAll_ok {waves : List K} : ∀ {d : Dict Name (Passband K)}, (∀ n pb, (n, pb) ∈ d → pb.waves ≠ []) →
    ∃ m, PassbandGroup.indexAll waves d = .ok m
  | [], _ => ⟨[], rfl⟩
  | (n, pb) :: d, h => by
    obtain ⟨m, hm⟩ := indexAll_ok (waves := waves) (d := d) fun k w hw => h k w (List.mem_cons_of_mem _ hw)
    have : ∃ i, PassbandGroup.indexOf waves pb.waves = .ok i := by
      have hne := h n pb (by simp)
      unfold PassbandGroup.indexOf
      cases hw : pb.waves with
      | nil => exact absurd hw hne
      | cons x l =>
        cases hl : (x :: l).getLast? with
        | none => simp at hl
        | some y =>
          simp only [List.head?_cons]
          split
          · exact ⟨_, rfl⟩
          · exact ⟨_, rfl⟩
    obtain ⟨i, hi⟩ := this
    exact ⟨(n, i) :: m, by simp only [PassbandGroup.indexAll, hi, hm]⟩

/-- With usable members the internal data can always be brought up to date. -/
theorem update_ok {g : PassbandGroup K} (hm : Members g.passbands) :
    ∃ g', g.update = (g', none) ∧ Good g' ∧ g'.passbands = g.passbands := by
  obtain ⟨m, h⟩ := indexAll_ok (waves := PassbandGroup.gridOf (1 / 10 ^ 5) g.passbands) fun n pb hw => (hm.2 n pb hw).2.2.1
  have hu : g.update = (⟨g.passbands, g.passbands.foldl PassbandGroup.addFilter [], PassbandGroup.gridOf (1 / 10 ^ 5) g.passbands, m⟩, none) := by
    unfold PassbandGroup.update
    dsimp only
    rw [h]
  exact ⟨_, hu, update_good hm hu⟩

theorem members_deref {bands : List (Passband K)} (hb : ∀ (r : Nat) pb, bands[r]? = some pb → Usable pb ∧ Processed pb)
    {d : Dict Name Nat} (h : Named bands d) : Members (deref bands d) := by
  refine ⟨by rw [deref_keys h.valid]; exact h.1, ?_⟩
  intro n pb hm
  obtain ⟨r, h1, h2⟩ := (deref_mem h.valid).1 hm
  obtain ⟨pb', h3, h4⟩ := h.2 n r h1
  rw [h2] at h3; cases h3
  exact ⟨h4, (hb r pb h2).1⟩

/-- Bringing a group up to date. -/
theorem update_spec {bands : List (Passband K)} (hb : ∀ (r : Nat) pb, bands[r]? = some pb → Usable pb ∧ Processed pb)
    {g : RefGroup K} (h : Named bands g.members) :
    (update bands g).2 = none ∧ (update bands g).1.members = g.members ∧ GroupOk bands (update bands g).1 ∧
    Good (seen bands (update bands g).1) ∧ (seen bands g).update = (seen bands (update bands g).1, none) := by
  obtain ⟨g', h1, h2, h3⟩ := update_ok (g := seen bands g) (members_deref hb h)
  have e : seen bands (update bands g).1 = g' := by
    unfold update
    rw [h1]
    unfold seen
    dsimp only
    rw [show deref bands g.members = g'.passbands from h3.symm]
  refine ⟨by unfold update; rw [h1], rfl, ⟨h, ?_⟩, by rw [e]; exact h2, by rw [e]; exact h1⟩
  have := h2.filters
  rw [← e] at this
  exact this

/-! ## One call -/

theorem later_refl (a : List (Passband K)) : Later a a := fun _ pb h => ⟨pb, h, kept_refl pb⟩

theorem later_append (a : List (Passband K)) (pb : Passband K) : Later a (a ++ [pb]) := by
  intro r q h
  refine ⟨q, ?_, kept_refl q⟩
  rw [List.getElem?_append_left]
  · exact h
  · rcases Nat.lt_or_ge r a.length with h' | h'
    · exact h'
    · rw [List.getElem?_eq_none h'] at h; cases h

theorem later_set (a : List (Passband K)) {s : Nat} {pb : Passband K} (hs : a[s]? = some pb) (delta q : Option K) :
    Later a (a.set s (pb.reprocess delta q).1) := by
  intro r w h
  by_cases hr : s = r
  · subst hr
    rw [hs] at h; cases h
    refine ⟨_, ?_, kept_reprocess delta q pb⟩
    rw [List.getElem?_set_self]
    rcases Nat.lt_or_ge s a.length with h' | h'
    · exact h'
    · rw [List.getElem?_eq_none h'] at hs; cases hs
  · exact ⟨w, by rw [List.getElem?_set_ne hr]; exact h, kept_refl w⟩

theorem later_refs (a : List (Passband K)) (d : Dict Name Nat) (delta q : Option K) :
    Later a (reprocessRefs delta q d a).1 := fun _ _ h =>
  reprocessRefs_all kept_refl kept_trans (kept_reprocess delta q) h

theorem set_get {α : Type} {l : List α} {i j : Nat} {x y : α} (h : (l.set i x)[j]? = some y) :
    (i = j ∧ y = x) ∨ (i ≠ j ∧ l[j]? = some y) := by
  by_cases hij : i = j
  · subst hij
    rw [List.getElem?_set] at h
    simp only [if_true] at h
    split at h
    · cases h; exact Or.inl ⟨rfl, rfl⟩
    · cases h
  · rw [List.getElem?_set_ne hij] at h
    exact Or.inr ⟨hij, h⟩

/-- The group a call builds, as a `PassbandGroup`. -/
theorem group_call {W : World K} (hW : Inv W) (refs : List Nat) (filters : Option (List Name))
    (hv : ∀ r ∈ refs, r < W.bands.length) :
    (∀ s, PassbandGroup.init (refs.filterMap fun r => W.bands[r]?) filters = .ok s →
      ∃ g, step W (.group refs filters) = (⟨W.bands, W.groups ++ [g]⟩, none) ∧ seen W.bands g = s ∧ GroupOk W.bands g ∧ Good s) ∧
    (∀ e, PassbandGroup.init (refs.filterMap fun r => W.bands[r]?) filters = .error e →
      step W (.group refs filters) = (W, some e)) := by
  obtain ⟨n1, n2⟩ := store_spec W.bands refs
  obtain ⟨p1, p2, p3⟩ := prune_spec' n1 filters
  rw [n2] at p2 p3
  have hany : refs.any (fun r => decide (W.bands.length ≤ r)) = false := by
    rw [List.any_eq_false]
    intro r hr
    have := hv r hr
    simp only [decide_eq_true_eq]; omega
  have hnil : (refs.filterMap fun r => W.bands[r]?) = [] ↔ refs = [] := by
    constructor
    · intro h
      cases refs with
      | nil => rfl
      | cons r refs =>
        rw [List.filterMap_cons, List.getElem?_eq_getElem (hv r (by simp))] at h
        simp at h
    · rintro rfl; rfl
  obtain ⟨u1, u2, u3, u4, u5⟩ := update_spec hW.bands (g := ⟨(prune W.bands (store W.bands refs) filters).1, [], [], []⟩) p1
  have useen : seen W.bands ⟨(prune W.bands (store W.bands refs) filters).1, [], [], []⟩ =
      ⟨(PassbandGroup.prune (PassbandGroup.store (refs.filterMap fun r => W.bands[r]?)) filters).1, [], [], []⟩ := by
    unfold seen
    rw [p2]
  rw [useen] at u5
  generalize hG : (update W.bands ⟨(prune W.bands (store W.bands refs) filters).1, [], [], []⟩) = U at u1 u2 u3 u4 u5
  obtain ⟨G, e⟩ := U
  dsimp only at u1 u2 u3 u4 u5
  subst u1
  have hstep : step W (.group refs filters) = (if refs = [] then (W, some .valueError)
      else if (prune W.bands (store W.bands refs) filters).2 ≠ [] then (W, some .valueError)
      else (⟨W.bands, W.groups ++ [G]⟩, none)) := by
    simp only [step]
    rw [hany, hG]
    rfl
  have hinit : PassbandGroup.init (refs.filterMap fun r => W.bands[r]?) filters =
      (if refs = [] then .error .valueError
      else if (prune W.bands (store W.bands refs) filters).2 ≠ [] then .error .valueError
      else .ok (seen W.bands G)) := by
    unfold PassbandGroup.init
    dsimp only
    rw [u5, p3]
    by_cases h : refs = []
    · rw [if_pos (hnil.2 h), if_pos h]
    · rw [if_neg (fun h' => h (hnil.1 h')), if_neg h]
  rw [hstep, hinit]
  constructor
  · intro s h
    by_cases h1 : refs = []
    · rw [if_pos h1] at h; cases h
    · rw [if_neg h1] at h ⊢
      by_cases h2 : (prune W.bands (store W.bands refs) filters).2 ≠ []
      · rw [if_pos h2] at h; cases h
      · rw [if_neg h2] at h ⊢
        cases h
        exact ⟨G, rfl, rfl, u3, u4⟩
  · intro e h
    by_cases h1 : refs = []
    · rw [if_pos h1] at h ⊢; cases h; rfl
    · rw [if_neg h1] at h ⊢
      by_cases h2 : (prune W.bands (store W.bands refs) filters).2 ≠ []
      · rw [if_pos h2] at h ⊢; cases h; rfl
      · rw [if_neg h2] at h; cases h

theorem add_call {W : World K} (hW : Inv W) {i r : Nat} {g : RefGroup K} {pb : Passband K} (hg : W.groups[i]? = some g)
    (hp : W.bands[r]? = some pb) :
    ∃ g', step W (.add i r) = (⟨W.bands, W.groups.set i g'⟩, none) ∧ (seen W.bands g).add pb = (seen W.bands g', none) ∧
      GroupOk W.bands g' ∧ Good (seen W.bands g') := by
  have hn := (hW.groups i g hg).1
  obtain ⟨u1, u2, u3, u4, u5⟩ := update_spec hW.bands (g := { g with members := g.members.set pb.fullName r }) (named_set hn hp)
  refine ⟨(update W.bands { g with members := g.members.set pb.fullName r }).1, ?_, ?_, u3, u4⟩
  · simp only [step, hg, hp]
    rw [u1]
  · rw [← u5]
    unfold PassbandGroup.add seen
    dsimp only
    rw [deref_set hn.valid hp]

theorem process_call {W : World K} (hW : Inv W) {i : Nat} {g : RefGroup K} (hg : W.groups[i]? = some g) (delta q : Option K) :
    ∃ g' bands e, step W (.process i delta q) = (⟨bands, W.groups.set i g'⟩, e) ∧
      bands = (reprocessRefs delta q g.members W.bands).1 ∧
      (seen W.bands g).process delta q = (seen bands g', e) ∧ GroupOk bands g' ∧ g'.members = g.members ∧ (e = none → Good (seen bands g')) := by
  have hok := hW.groups i g hg
  have hn := hok.1
  have hspec := reprocessRefs_spec (delta := delta) (q := q) hn.valid (named_refs hn)
  have hl := later_refs W.bands g.members delta q
  cases hR : reprocessRefs delta q g.members W.bands with
  | mk bands e =>
    rw [hR] at hspec hl
    dsimp only at hspec hl
    have hlen := (reprocessRefs_frame hR).1
    cases e with
    | some e =>
      refine ⟨g, bands, some e, ?_, rfl, ?_, groupOk_later hl hok, rfl, by simp⟩
      · simp only [step, hg, hR]
        have : W.groups.set i g = W.groups := by
          apply List.ext_getElem?
          intro j
          rw [List.getElem?_set]
          split
          · rename_i hij
            subst hij
            rw [hg]
            split
            · rfl
            · rename_i hlt
              rw [List.getElem?_eq_none (by omega)] at hg; cases hg
          · rfl
        rw [this]
      · unfold PassbandGroup.process
        rw [show (seen W.bands g).passbands = deref W.bands g.members from rfl, hspec]
        rfl
    | none =>
      have hb := good_bands hl hlen hW.bands
      have hg' := groupOk_later hl hok
      obtain ⟨u1, u2, u3, u4, u5⟩ := update_spec hb (g := g) hg'.1
      refine ⟨(update bands g).1, bands, none, ?_, rfl, ?_, u3, u2, fun _ => u4⟩
      · simp only [step, hg, hR]
        rw [u1]
      · unfold PassbandGroup.process
        rw [show (seen W.bands g).passbands = deref W.bands g.members from rfl, hspec]
        exact u5

/-! ## Reachable worlds -/

theorem inv_set {bands : List (Passband K)} {groups : List (RefGroup K)} {i : Nat} {g' : RefGroup K}
    (h : ∀ (j : Nat) g, groups[j]? = some g → GroupOk bands g) (hg : GroupOk bands g') :
    ∀ (j : Nat) g, (groups.set i g')[j]? = some g → GroupOk bands g := by
  intro j g hj
  rcases set_get hj with ⟨_, rfl⟩ | ⟨_, hj⟩
  · exact hg
  · exact h j g hj

theorem step_inv {W : World K} (hW : Inv W) (op : Op K) : Inv (step W op).1 := by
  cases op with
  | passband t survey filter delta trim units =>
    cases h : Passband.init t survey filter delta trim units with
    | error e => simp only [step, h]; exact hW
    | ok pb =>
      simp only [step, h]
      refine ⟨?_, fun i g hg => groupOk_later (later_append _ pb) (hW.groups i g hg)⟩
      intro r q hq
      rcases Nat.lt_or_ge r W.bands.length with hr | hr
      · rw [List.getElem?_append_left hr] at hq
        exact hW.bands r q hq
      · rw [List.getElem?_append_right hr] at hq
        have := List.mem_of_getElem? hq
        simp only [List.mem_singleton] at this
        subst this
        exact ⟨init_usable h, init_processed h⟩
  | group refs filters =>
    by_cases hv : ∀ r ∈ refs, r < W.bands.length
    · obtain ⟨h1, h2⟩ := group_call hW refs filters hv
      cases hi : PassbandGroup.init (refs.filterMap fun r => W.bands[r]?) filters with
      | error e => rw [h2 e hi]; exact hW
      | ok s =>
        obtain ⟨g, e1, e2, e3, e4⟩ := h1 s hi
        rw [e1]
        refine ⟨hW.bands, ?_⟩
        intro j g' hj
        dsimp only at hj
        rcases Nat.lt_or_ge j W.groups.length with hr | hr
        · rw [List.getElem?_append_left hr] at hj
          exact hW.groups j g' hj
        · rw [List.getElem?_append_right hr] at hj
          have := List.mem_of_getElem? hj
          simp only [List.mem_singleton] at this
          subst this
          exact e3
    · have : refs.any (fun r => decide (W.bands.length ≤ r)) = true := by
        push Not at hv
        obtain ⟨r, h1, h2⟩ := hv
        rw [List.any_eq_true]
        exact ⟨r, h1, by simpa using h2⟩
      simp only [step]
      rw [if_pos this]
      exact hW
  | add i r =>
    cases hg : W.groups[i]? with
    | none => simp only [step, hg]; exact hW
    | some g =>
      cases hp : W.bands[r]? with
      | none => simp only [step, hg, hp]; exact hW
      | some pb =>
        obtain ⟨g', e1, e2, e3, e4⟩ := add_call hW hg hp
        rw [e1]
        exact ⟨hW.bands, inv_set hW.groups e3⟩
  | process i delta trim =>
    cases hg : W.groups[i]? with
    | none => simp only [step, hg]; exact hW
    | some g =>
      obtain ⟨g', bands, e, e1, e2, e3, e4, _, e5⟩ := process_call hW hg delta trim
      rw [e1]
      have hl : Later W.bands bands := by rw [e2]; exact later_refs W.bands g.members delta trim
      have hlen : bands.length = W.bands.length := by
        rw [e2]
        exact (reprocessRefs_frame (e := (reprocessRefs delta trim g.members W.bands).2) rfl).1
      exact ⟨good_bands hl hlen hW.bands, inv_set (fun j g hj => groupOk_later hl (hW.groups j g hj)) e4⟩
  | processOne r delta trim =>
    cases hp : W.bands[r]? with
    | none => simp only [step, hp]; exact hW
    | some pb =>
      simp only [step, hp]
      have hl := later_set W.bands hp delta trim
      exact ⟨good_bands hl (by simp) hW.bands, fun j g hj => groupOk_later hl (hW.groups j g hj)⟩

theorem reachable_inv {W : World K} (h : Reachable W) : Inv W := by
  induction h with
  | start => exact ⟨fun r pb h => by simp at h, fun i g h => by simp at h⟩
  | step h op ih => exact step_inv ih op

/-! ## C130 -/

/-- C130 (calls). Whatever happened before, a call on a group acts on what the group shows as it would
if the group had its own copies of its passbands: construction gives the group (or the exception) of
`PassbandGroup` for the passbands as they are now, and `add_passband` and
`process_transmission_tables` change what the group shows, and raise, as they do for such a group. -/
theorem C130_calls (W : World K) (hW : Reachable W) :
    (∀ refs filters, (∀ r ∈ refs, r < W.bands.length) →
      (∀ s, PassbandGroup.init (refs.filterMap fun r => W.bands[r]?) filters = .ok s →
        (step W (.group refs filters)).2 = none ∧ Shows (step W (.group refs filters)).1 W.groups.length s) ∧
      (∀ e, PassbandGroup.init (refs.filterMap fun r => W.bands[r]?) filters = .error e →
        step W (.group refs filters) = (W, some e))) ∧
    (∀ i s r pb, Shows W i s → W.bands[r]? = some pb →
      Shows (step W (.add i r)).1 i (s.add pb).1 ∧ (step W (.add i r)).2 = (s.add pb).2) ∧
    (∀ i s delta trim, Shows W i s →
      Shows (step W (.process i delta trim)).1 i (s.process delta trim).1 ∧
      (step W (.process i delta trim)).2 = (s.process delta trim).2) := by
  have hI := reachable_inv hW
  have hlt : ∀ {i : Nat} {g : RefGroup K}, W.groups[i]? = some g → i < W.groups.length := by
    intro i g hg
    rcases Nat.lt_or_ge i W.groups.length with h | h
    · exact h
    · rw [List.getElem?_eq_none h] at hg; cases hg
  refine ⟨?_, ?_, ?_⟩
  · intro refs filters hv
    obtain ⟨h1, h2⟩ := group_call hI refs filters hv
    refine ⟨?_, h2⟩
    intro s hs
    obtain ⟨g, e1, e2, e3, e4⟩ := h1 s hs
    rw [e1]
    exact ⟨rfl, g, by simp, e2⟩
  · rintro i s r pb ⟨g, hg, rfl⟩ hp
    obtain ⟨g', e1, e2, e3, e4⟩ := add_call hI hg hp
    rw [e1, e2]
    exact ⟨⟨g', by rw [List.getElem?_set_self (hlt hg)], rfl⟩, rfl⟩
  · rintro i s delta trim ⟨g, hg, rfl⟩
    obtain ⟨g', bands, e, e1, e2, e3, e4, _, e5⟩ := process_call hI hg delta trim
    rw [e1, e3]
    exact ⟨⟨g', by rw [List.getElem?_set_self (hlt hg)], rfl⟩, rfl⟩

theorem deref_congr {a b : List (Passband K)} : ∀ {d : Dict Name Nat}, (∀ n r, (n, r) ∈ d → b[r]? = a[r]?) → deref b d = deref a d
  | [], _ => rfl
  | (n, r) :: d, h => by
    simp only [deref, h n r (by simp)]
    rw [deref_congr fun m s hm => h m s (List.mem_cons_of_mem _ hm)]

/-- What a call on something else leaves alone. -/
theorem other_call {W : World K} (hW : Inv W) {op : Op K} {i : Nat} {g : RefGroup K} (hg : W.groups[i]? = some g)
    (ht : target W op ≠ some i) (hk : ∀ r, Holds W i r → ¬ Reprocesses W op r) :
    (step W op).1.groups[i]? = some g ∧ seen (step W op).1.bands g = seen W.bands g := by
  have hok := hW.groups i g hg
  have hholds : ∀ n r, (n, r) ∈ g.members → Holds W i r := fun n r hm => ⟨g, n, hg, Dict.get?_of_mem hok.1.1 hm⟩
  have hlt : i < W.groups.length := by
    rcases Nat.lt_or_ge i W.groups.length with h | h
    · exact h
    · rw [List.getElem?_eq_none h] at hg; cases hg
  have hseen : ∀ {bands : List (Passband K)}, (∀ n r, (n, r) ∈ g.members → bands[r]? = W.bands[r]?) → seen bands g = seen W.bands g := by
    intro bands h
    unfold seen
    rw [deref_congr h]
  cases op with
  | passband t survey filter delta trim units =>
    cases h : Passband.init t survey filter delta trim units with
    | error e => simp only [step, h]; exact ⟨hg, trivial⟩
    | ok pb =>
      simp only [step, h]
      refine ⟨hg, hseen ?_⟩
      intro n r hm
      obtain ⟨w, hw, _⟩ := hok.1.2 n r hm
      rw [List.getElem?_append_left]
      rcases Nat.lt_or_ge r W.bands.length with h' | h'
      · exact h'
      · rw [List.getElem?_eq_none h'] at hw; cases hw
  | group refs filters =>
    by_cases hv : ∀ r ∈ refs, r < W.bands.length
    · obtain ⟨h1, h2⟩ := group_call hW refs filters hv
      cases hi : PassbandGroup.init (refs.filterMap fun r => W.bands[r]?) filters with
      | error e => rw [h2 e hi]; exact ⟨hg, rfl⟩
      | ok s =>
        obtain ⟨g', e1, _⟩ := h1 s hi
        rw [e1]
        exact ⟨by rw [List.getElem?_append_left hlt]; exact hg, rfl⟩
    · have : refs.any (fun r => decide (W.bands.length ≤ r)) = true := by
        push Not at hv
        obtain ⟨r, h1, h2⟩ := hv
        rw [List.any_eq_true]
        exact ⟨r, h1, by simpa using h2⟩
      simp only [step]
      rw [if_pos this]
      exact ⟨hg, rfl⟩
  | add j r =>
    have hij : j ≠ i := fun h => ht (by rw [← h]; rfl)
    cases hj : W.groups[j]? with
    | none => simp only [step, hj]; exact ⟨hg, trivial⟩
    | some gj =>
      cases hp : W.bands[r]? with
      | none => simp only [step, hj, hp]; exact ⟨hg, trivial⟩
      | some pb =>
        obtain ⟨g', e1, _⟩ := add_call hW hj hp
        rw [e1]
        exact ⟨by rw [List.getElem?_set_ne hij]; exact hg, rfl⟩
  | process j delta trim =>
    have hij : j ≠ i := fun h => ht (by rw [← h]; rfl)
    cases hj : W.groups[j]? with
    | none => simp only [step, hj]; exact ⟨hg, trivial⟩
    | some gj =>
      obtain ⟨g', bands, e, e1, e2, _⟩ := process_call hW hj delta trim
      rw [e1]
      refine ⟨by rw [List.getElem?_set_ne hij]; exact hg, hseen ?_⟩
      intro n r hm
      show bands[r]? = _
      rw [e2]
      refine (reprocessRefs_frame (e := (reprocessRefs delta trim gj.members W.bands).2) rfl).2 r ?_
      intro m hm'
      exact hk r (hholds n r hm) ⟨gj, m, hj, Dict.get?_of_mem (hW.groups j gj hj).1.1 hm'⟩
  | processOne s delta trim =>
    cases hp : W.bands[s]? with
    | none => simp only [step, hp]; exact ⟨hg, trivial⟩
    | some pb =>
      simp only [step, hp]
      refine ⟨hg, hseen ?_⟩
      intro n r hm
      rw [List.getElem?_set_ne]
      rintro rfl
      exact hk s (hholds n s hm) rfl

/-- C130 (other groups). A call on something else, raising or not, that reprocesses none of a group's
passbands changes nothing of what the group shows. -/
theorem C130_others (W : World K) (hW : Reachable W) (op : Op K) (i : Nat) (s : PassbandGroup K) (hs : Shows W i s)
    (ht : target W op ≠ some i) (hk : ∀ r, Holds W i r → ¬ Reprocesses W op r) : Shows (step W op).1 i s := by
  obtain ⟨g, hg, rfl⟩ := hs
  obtain ⟨h1, h2⟩ := other_call (reachable_inv hW) hg ht hk
  exact ⟨g, h1, h2⟩

omit [FloorRing K] [IsStrictOrderedRing K] [LinearOrder K] [Field K] in
theorem store_values {d : Dict Name (Passband K)} (hn : d.keys.Nodup) (hk : ∀ n pb, (n, pb) ∈ d → pb.fullName = n) :
    PassbandGroup.store d.values = d := by
  unfold PassbandGroup.store
  have key : ∀ (l acc : Dict Name (Passband K)), (acc ++ l).keys.Nodup → (∀ n pb, (n, pb) ∈ l → pb.fullName = n) →
      (Dict.values l).foldl (fun (d : Dict Name (Passband K)) pb => Dict.set d pb.fullName pb) acc = acc ++ l := by
    intro l
    induction l with
    | nil => intro acc _ _; simp [Dict.values]
    | cons p l ih =>
      obtain ⟨n, pb⟩ := p
      intro acc h1 h2
      have hname := h2 n pb (by simp)
      have hnot : n ∉ acc.keys := by
        have : (acc.keys ++ n :: Dict.keys l).Nodup := by simpa [Dict.keys] using h1
        intro hm
        rw [List.nodup_append] at this
        exact this.2.2 n hm n (by simp) rfl
      have hset : Dict.set acc pb.fullName pb = acc ++ [(n, pb)] := by
        rw [hname]
        clear ih h1 h2 hname
        induction acc with
        | nil => rfl
        | cons q acc ih =>
          obtain ⟨m, w⟩ := q
          have hmn : m ≠ n := by rintro rfl; exact hnot (by simp [Dict.keys])
          unfold Dict.set
          rw [if_neg hmn, ih (fun h => hnot (by simp only [Dict.keys, List.map_cons, List.mem_cons]; exact Or.inr h))]
          rfl
      show (Dict.values l).foldl _ (Dict.set acc pb.fullName pb) = _
      rw [hset]
      have := ih (acc ++ [(n, pb)]) (by simpa using h1) (fun m w hm => h2 m w (List.mem_cons_of_mem _ hm))
      rw [this]
      simp
  exact key d [] (by simpa using hn) hk

/-- C130 (lookup and models). Whatever happened before, shared passbands included: every passband
object is consistent (its grid is that of its table, and the table is its loaded table processed with
its `delta_wave`), and a group with members looks up, and evaluates the band fluxes of every model
exactly as the group built now from its members would. -/
theorem C130_lookup (W : World K) (hW : Reachable W) (i : Nat) (s : PassbandGroup K) (hs : Shows W i s) :
    (∀ pb ∈ s.passbands.values, pb.waves = pb.table.map (·.1) ∧ ∃ trim, Passband.process pb.loaded pb.deltaWave trim = .ok pb.table) ∧
    (s.passbands ≠ [] → ∃ fresh, PassbandGroup.init s.passbands.values none = .ok fresh ∧
      fresh.passbands = s.passbands ∧
      (∀ key, s.getItem key = fresh.getItem key ∧ s.contains key = fresh.contains key) ∧
      (∀ filters, s.maskByFilter filters = fresh.maskByFilter filters) ∧
      ∀ (R : Type) (evalSed : List K → List K → R → Except Err (Mat K × R)) times filters (r : R),
        bandfluxesSingle evalSed s times filters r = bandfluxesSingle evalSed fresh times filters r) := by
  obtain ⟨g, hg, rfl⟩ := hs
  have hI := reachable_inv hW
  have hok := hI.groups i g hg
  have hm := members_deref hI.bands hok.1
  constructor
  · intro pb hpb
    obtain ⟨⟨n, q⟩, hp, rfl⟩ := List.mem_map.1 hpb
    obtain ⟨r, _, h2⟩ := (deref_mem hok.1.valid).1 hp
    have := hI.bands r q h2
    exact ⟨this.1.2.2.2, this.2⟩
  · intro hne
    obtain ⟨fresh, h1, h2, h3⟩ := update_ok (g := ⟨deref W.bands g.members, [], [], []⟩) hm
    have hst : PassbandGroup.store (deref W.bands g.members).values = deref W.bands g.members :=
      store_values hm.1 fun n pb h => (hm.2 n pb h).1
    have hinit : PassbandGroup.init (deref W.bands g.members).values none = .ok fresh := by
      unfold PassbandGroup.init
      rw [if_neg (by
        intro h
        rw [Dict.values, List.map_eq_nil_iff] at h
        exact hne h)]
      simp only [hst, PassbandGroup.prune, ne_eq, not_true_eq_false, if_false, h1]
    have hf : fresh.filterToName = g.filterToName := by
      rw [h2.filters, h3, hok.2]
    have hget : ∀ key, (seen W.bands g).getItem key = fresh.getItem key := by
      intro key
      unfold PassbandGroup.getItem
      rw [h3, hf]
      rfl
    refine ⟨fresh, hinit, h3, fun key => ⟨hget key, ?_⟩, ?_, ?_⟩
    · unfold PassbandGroup.contains
      rw [h3, hf]
      rfl
    · intro filters
      unfold PassbandGroup.maskByFilter
      rw [h3, hf]
      rfl
    · intro R evalSed times filters r
      unfold bandfluxesSingle
      have : ∀ (fs : List Name) (r : R) (out : List K), bandfluxLoop evalSed (seen W.bands g) times filters fs r out =
          bandfluxLoop evalSed fresh times filters fs r out := by
        intro fs
        induction fs with
        | nil => intro r out; rfl
        | cons f fs ih =>
          intro r out
          simp only [bandfluxLoop, hget, ih]
      rw [this]

theorem upToDate_good {W : World K} {i : Nat} (h : UpToDate W i) :
    Reachable W ∧ ∃ g, W.groups[i]? = some g ∧ Good (seen W.bands g) := by
  induction h with
  | @call W W' i op hr ht h =>
    have hW' : Reachable W' := by have := Reachable.step hr op; rw [h] at this; exact this
    refine ⟨hW', ?_⟩
    have hI := reachable_inv hr
    have hlt : ∀ {i : Nat} {g : RefGroup K}, W.groups[i]? = some g → i < W.groups.length := by
      intro i g hg
      rcases Nat.lt_or_ge i W.groups.length with h | h
      · exact h
      · rw [List.getElem?_eq_none h] at hg; cases hg
    cases op with
    | passband => cases ht
    | processOne => cases ht
    | group refs filters =>
      cases ht
      by_cases hv : ∀ r ∈ refs, r < W.bands.length
      · obtain ⟨h1, h2⟩ := group_call hI refs filters hv
        cases hi : PassbandGroup.init (refs.filterMap fun r => W.bands[r]?) filters with
        | error e => rw [h2 e hi] at h; cases h
        | ok s =>
          obtain ⟨g, e1, e2, e3, e4⟩ := h1 s hi
          rw [e1] at h; cases h
          exact ⟨g, by simp, by rw [e2]; exact e4⟩
      · have : refs.any (fun r => decide (W.bands.length ≤ r)) = true := by
          push Not at hv
          obtain ⟨r, h1, h2⟩ := hv
          rw [List.any_eq_true]
          exact ⟨r, h1, by simpa using h2⟩
        simp only [step] at h
        rw [if_pos this] at h
        cases h
    | add j r =>
      cases ht
      cases hj : W.groups[i]? with
      | none => simp only [step, hj] at h; cases h
      | some g =>
        cases hp : W.bands[r]? with
        | none => simp only [step, hj, hp] at h; cases h
        | some pb =>
          obtain ⟨g', e1, e2, e3, e4⟩ := add_call hI hj hp
          rw [e1] at h; cases h
          exact ⟨g', by rw [List.getElem?_set_self (hlt hj)], e4⟩
    | process j delta trim =>
      cases ht
      cases hj : W.groups[i]? with
      | none => simp only [step, hj] at h; cases h
      | some g =>
        obtain ⟨g', bands, e, e1, e2, e3, e4, _, e5⟩ := process_call hI hj delta trim
        rw [e1] at h; cases h
        exact ⟨g', by rw [List.getElem?_set_self (hlt hj)], e5 rfl⟩
  | @other W W' i op e hu ht hk h ih =>
    obtain ⟨hr, g, hg, hgood⟩ := ih
    obtain ⟨h1, h2⟩ := other_call (reachable_inv hr) hg ht hk
    have hW' : Reachable W' := by have := Reachable.step hr op; rw [h] at this; exact this
    rw [h] at h1 h2
    exact ⟨hW', g, h1, by rw [h2]; exact hgood⟩

/-- C130 (the group's own band fluxes). If the last call on the group returned, and no passband of the
group was reprocessed since by a call on the passband or on another group, then the group's grid is
the strictly increasing list of its passbands' wavelengths, and the band fluxes it computes from
spectra sampled on the grid are those of its passbands as they are now (with the separation C29 asks
for). Missing: groups whose passbands were reprocessed elsewhere, see `C130_shared_counterexample`. -/
theorem C130_group_flux_partial (W : World K) (i : Nat) (h : UpToDate W i) (s : PassbandGroup K) (hs : Shows W i s)
    (hsep : Separated s) :
    s.waves.Pairwise (· < ·) ∧
    (∀ w, w ∈ s.waves ↔ ∃ pb ∈ s.passbands.values, w ∈ pb.waves) ∧
    (∀ n pb, s.passbands.get? n = some pb → ∀ fs : List (K → K),
      s.bandflux (fs.map fun f => onGrid f s.waves) n = pb.bandflux (fs.map fun f => onGrid f pb.waves)) ∧
    (∀ fs : List (K → K), fs ≠ [] → s.passbands ≠ [] → ∃ d,
      s.bandfluxes (fs.map fun f => onGrid f s.waves) = .ok d ∧ d.keys = s.passbands.keys ∧
      ∀ n pb, s.passbands.get? n = some pb → ∃ v, d.get? n = some v ∧
        pb.bandflux (fs.map fun f => onGrid f pb.waves) = .ok v) := by
  obtain ⟨g, hg, rfl⟩ := hs
  obtain ⟨_, g', hg', hgood⟩ := upToDate_good h
  rw [hg] at hg'; cases hg'
  exact shared_grid hgood hsep

end LCL.PassbandShareProps
