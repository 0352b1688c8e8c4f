import Verif.Props.FullRun

/-!
# Graphs of nodes with constant parameters, and its simulation in one LSST visit (for examples)
-/

namespace LCL.ConstGraph
open LCL LCL.SimSpec LCL.NodeSpec LCL.EndToEnd LCL.EndToEndSpec LCL.EndToEndProps LCL.FullRun LCL.FullRunSpec LCL.FullRunProps LCL.GraphLemmas

/-- The setters of the constants `ps`. -/
noncomputable def cSetters (ps : List (Name × ℝ)) : Dict Name (Setter ℝ) := ps.map fun q => (q.1, ⟨.const (.scalar q.2), true⟩)

/-- A node with the constant parameters `ps`. -/
noncomputable def cNode (ps : List (Name × ℝ)) (pos : Option Nat) (str : Name) : PNode ℝ Nat :=
  ⟨"ConstModel".toList, some "source".toList, false, none, none, [], pos, str, cSetters ps, [], []⟩

/-- The same constants as the parameters of two samples. -/
noncomputable def cParams (ps : List (Name × ℝ)) : Dict Name (Val ℝ) := ps.map fun q => (q.1, .arr [.scalar q.2, .scalar q.2])

/-- Two samples of the graph hold the constants (for a concrete list of constants this is a computation). -/
def Sampled (ps : List (Name × ℝ)) : Prop :=
  ∃ r, Heap.sampleParameters [cNode ps none []] 0 [] none 2 (4 : Nat) = .ok ([cNode ps (some 0) "source".toList], r) ∧
    r.gs.states = [("source".toList, cParams ps)] ∧ r.gs.numSamples = 2

theorem c_src (ps : List (Name × ℝ)) : ∀ q ∈ cSetters ps, ∃ x, q.2.src = .const (.scalar x) := by
  intro q hq
  obtain ⟨y, _, rfl⟩ := List.mem_map.1 hq
  exact ⟨y.2, rfl⟩

theorem c_keys (ps : List (Name × ℝ)) : (cSetters ps).keys = ps.map (·.1) := by
  unfold cSetters Dict.keys
  rw [List.map_map]
  rfl

theorem c_params {ps : List (Name × ℝ)} (hn : (ps.map (·.1)).Nodup) {q : Name × ℝ} (hq : q ∈ ps) : (cParams ps).get? q.1 = some (.arr [.scalar q.2, .scalar q.2]) := by
  refine Dict.get?_of_mem ?_ (List.mem_map.2 ⟨q, hq, rfl⟩)
  unfold cParams Dict.keys
  rw [List.map_map]
  exact hn

theorem c_graph {ps : List (Name × ℝ)} (hn : (ps.map (·.1)).Nodup) : GraphOK [cNode ps none []] where
  keys := by intro nd h; rw [List.mem_singleton] at h; subst h; show (cSetters ps).keys.Nodup; rw [c_keys]; exact hn
  links := by
    intro nd h q hq d hd; rw [List.mem_singleton] at h; subst h
    obtain ⟨x, hx⟩ := c_src ps q hq
    rw [hx] at hd; cases hd
  outs := by
    intro nd h p; rw [List.mem_singleton] at h; subst h
    constructor
    · intro hp; exact absurd hp (by simp [show (cNode ps none []).outputs = [] from rfl])
    · rintro ⟨st, q, hq, e⟩
      obtain ⟨x, hx⟩ := c_src ps _ hq
      rw [e] at hx; cases hx
  outsNodup := by intro nd h; rw [List.mem_singleton] at h; subst h; exact List.nodup_nil
  plain := by intro nd h _; rw [List.mem_singleton] at h; subst h; rfl
  args := by intro nd h a ha; rw [List.mem_singleton] at h; subst h; cases ha

/-- The constants include the parameters of a physical model. -/
def Enough (ps : List (Name × ℝ)) : Prop := ∀ p ∈ ["ra".toList, "dec".toList, "t0".toList, "redshift".toList], ∃ x, (p, x) ∈ ps

theorem c_physical {ps : List (Name × ℝ)} (h : Enough ps) : FullRunSpec.Physical [cNode ps none []] 0 := by
  refine ⟨_, rfl, fun p hp => ?_⟩
  obtain ⟨x, hx⟩ := h p hp
  exact ⟨_, List.mem_map.2 ⟨_, hx, rfl⟩⟩

/-- Any model that answers, with non-negative fluxes, for the filter `g` in states with these constants can be simulated; the sampled state holds the constants. -/
theorem c_run {ps : List (Name × ℝ)} (hn : (ps.map (·.1)).Nodup) (hS : Sampled ps) (hE : Enough ps) (draw : Nat → ℝ × Nat) {isBand : Bool}
    {ev : Heap ℝ Nat → PNode ℝ Nat → SurveyArg → List ℝ → List Name → SState ℝ → Nat → Except Err (List ℝ × Nat)}
    (hans : ∀ st : SState ℝ, (∀ q ∈ ps, (st.get? "source".toList).bind (·.get? q.1) = some (.num q.2)) →
      Answers (ev [cNode ps (some 0) "source".toList] (cNode ps (some 0) "source".toList) lsstArg) st ["g".toList]) :
    ∃ out, simulateFullWith isBand ev draw [cNode ps none []] 0 [] 2 [lsstArg] [] [] (some [some 1, none]) 4 = .ok out ∧
      out.graph = [cNode ps (some 0) "source".toList] ∧ ∀ q ∈ ps, ∀ k : Nat, (k : Int) < 2 → sampleValue out.sampled "source".toList q.1 k = some (.scalar q.2) := by
  obtain ⟨r, hsp, hst, hnum⟩ := hS
  obtain ⟨hsh, _⟩ := base_parts (c_graph hn) (c_physical hE) hsp (nd := cNode ps (some 0) "source".toList) rfl
  have hval : ∀ q ∈ ps, ∀ k : Nat, (k : Int) < 2 → sampleValue r.gs "source".toList q.1 k = some (.scalar q.2) := by
    intro q hq k hk
    unfold sampleValue
    rw [if_neg (by omega), read_eq_look _ hsh]
    unfold look
    rw [hst]
    have : Dict.get? [("source".toList, cParams ps)] "source".toList = some (cParams ps) := by rw [Dict.get?_cons, if_pos rfl]
    rw [this, Option.bind_some, c_params hn hq]
    have : k = 0 ∨ k = 1 := by omega
    rcases this with rfl | rfl <;> rfl
  have hat : ∀ p ∈ ["ra".toList, "dec".toList, "t0".toList, "redshift".toList], ∃ x, ∀ k : Nat, (k : Int) < 2 → sampleValue r.gs "source".toList p k = some (.scalar x) := by
    intro p hp
    obtain ⟨x, hx⟩ := hE p hp
    exact ⟨x, fun k hk => hval (p, x) hx k hk⟩
  obtain ⟨out, ho⟩ := C119_answers (isBand := isBand) (ev := ev) draw (c_graph hn) (c_physical hE) (n := 2) (by norm_num) (args := [lsstArg]) (paramCols := [])
    (offset := some [some 1, none]) hsp rfl (Or.inr (by simp))
    (by
      intro k hk node p x hx
      unfold sampleValue at hx
      rw [if_neg (by omega), read_eq_look _ hsh] at hx
      cases hl : look r.gs node p with
      | none => rw [hl] at hx; cases hx
      | some v =>
        have hl' := hl
        unfold look at hl'
        cases hd : r.gs.states.get? node with
        | none => rw [hd] at hl'; cases hl'
        | some d =>
          rw [hd, Option.bind_some] at hl'
          have h1 := Dict.mem_of_get? hd
          rw [hst, List.mem_singleton] at h1
          cases h1
          obtain ⟨q, _, h2⟩ := List.mem_map.1 (Dict.mem_of_get? hl')
          have : k = 0 ∨ k = 1 := by omega
          rw [hl] at hx
          obtain ⟨-, rfl⟩ := Prod.mk.inj h2
          rcases this with rfl | rfl <;> exact Or.inr ⟨_, (Option.some.inj hx).symm⟩)
    (fun k hk => by
      obtain ⟨x, hx⟩ := hat "ra".toList (by simp)
      obtain ⟨y, hy⟩ := hat "dec".toList (by simp)
      exact ⟨x, y, hx k hk, hy k hk⟩)
    (Or.inr ⟨_, _, rfl, fun k hk => by obtain ⟨x, hx⟩ := hat "t0".toList (by simp); exact ⟨x, hx k hk⟩⟩)
    (by intro c hc; cases hc) (by intro c hc; cases hc)
    (by
      intro st k hk hso a ha F hF
      rw [List.mem_singleton] at ha
      subst ha
      have : F = ["g".toList] := by
        have e : lsstArg.table.cols.get? "filter".toList = some (["g".toList].map .str) := rfl
        rw [e] at hF
        exact (List.map_injective_iff.2 (fun x y e => by cases e; rfl) (Option.some.inj hF)).symm
      subst this
      refine hans st fun q hq => ?_
      rw [hso "source".toList q.1, hval q hq k hk]
      rfl)
    (by intro a ha; rw [List.mem_singleton] at ha; subst ha; exact lsst_sound.table)
  have hgs : out.graph = [cNode ps (some 0) "source".toList] ∧ out.sampled = r.gs := by
    obtain ⟨run, _, _, _, _, _, _, h1, h2, _⟩ := run_parts ho
    rw [hsp] at h1
    have h3 := Except.ok.inj h1
    exact ⟨(congrArg Prod.fst h3).symm, h2.trans (congrArg (fun q => q.2.gs) h3).symm⟩
  exact ⟨out, ho, hgs.1, fun q hq k hk => by rw [hgs.2]; exact hval q hq k hk⟩

/-! ### A composite: several nodes of constants -/

/-- A node with a name and constant parameters. -/
noncomputable def gNode (q : Name × List (Name × ℝ)) (pos : Option Nat) (str : Name) : PNode ℝ Nat :=
  ⟨"ConstModel".toList, some q.1, false, none, none, [], pos, str, cSetters q.2, [], []⟩

/-- The graph before it is sampled. -/
noncomputable def before (nodes : List (Name × List (Name × ℝ))) : Heap ℝ Nat := nodes.map fun q => gNode q none []

/-- The graph after it is sampled. -/
noncomputable def after (nodes : List (Name × List (Name × ℝ))) : Heap ℝ Nat := nodes.mapIdx fun i q => gNode q (some i) q.1

/-- Two samples of the graph hold the constants. -/
def AllSampled (nodes : List (Name × List (Name × ℝ))) (objs : List NodeId) : Prop :=
  ∃ r, Heap.sampleParameters (before nodes) 0 objs none 2 (4 : Nat) = .ok (after nodes, r) ∧ r.gs.numSamples = 2 ∧
    (∀ q ∈ nodes, r.gs.states.get? q.1 = some (cParams q.2)) ∧ ∀ e ∈ r.gs.states, ∃ q ∈ nodes, e = (q.1, cParams q.2)

theorem g_graph {nodes : List (Name × List (Name × ℝ))} (hn : ∀ q ∈ nodes, (q.2.map (·.1)).Nodup) : GraphOK (before nodes) := by
  have key : ∀ nd ∈ before nodes, ∃ q ∈ nodes, nd = gNode q none [] := by
    intro nd h
    obtain ⟨q, hq, rfl⟩ := List.mem_map.1 h
    exact ⟨q, hq, rfl⟩
  refine ⟨?_, ?_, ?_, ?_, ?_, ?_⟩
  · intro nd h; obtain ⟨q, hq, rfl⟩ := key nd h; show (cSetters q.2).keys.Nodup; rw [c_keys]; exact hn q hq
  · intro nd h e he d hd; obtain ⟨q, hq, rfl⟩ := key nd h
    obtain ⟨x, hx⟩ := c_src q.2 e he
    rw [hx] at hd; cases hd
  · intro nd h p; obtain ⟨q, hq, rfl⟩ := key nd h
    constructor
    · intro hp; exact absurd hp (by simp [show (gNode q none []).outputs = [] from rfl])
    · rintro ⟨st, e, he, e'⟩
      obtain ⟨x, hx⟩ := c_src q.2 _ he
      rw [e'] at hx; cases hx
  · intro nd h; obtain ⟨q, hq, rfl⟩ := key nd h; exact List.nodup_nil
  · intro nd h _; obtain ⟨q, hq, rfl⟩ := key nd h; rfl
  · intro nd h a ha; obtain ⟨q, hq, rfl⟩ := key nd h; cases ha

/-- Any model that answers, with non-negative fluxes, for the filter `g` in states with these constants can be simulated; the sampled state holds the constants. -/
theorem g_run {root : Name × List (Name × ℝ)} {rest : List (Name × List (Name × ℝ))} {objs : List NodeId} (hn : ∀ q ∈ root :: rest, (q.2.map (·.1)).Nodup)
    (hS : AllSampled (root :: rest) objs) (hE : Enough root.2) (draw : Nat → ℝ × Nat) {isBand : Bool}
    {ev : Heap ℝ Nat → PNode ℝ Nat → SurveyArg → List ℝ → List Name → SState ℝ → Nat → Except Err (List ℝ × Nat)}
    (hans : ∀ st : SState ℝ, (∀ q ∈ root :: rest, ∀ c ∈ q.2, (st.get? q.1).bind (·.get? c.1) = some (.num c.2)) →
      Answers (ev (after (root :: rest)) (gNode root (some 0) root.1) lsstArg) st ["g".toList]) :
    FullRunSpec.Physical (before (root :: rest)) 0 ∧ ∃ out, simulateFullWith isBand ev draw (before (root :: rest)) 0 objs 2 [lsstArg] [] [] (some [some 1, none]) 4 = .ok out ∧
      out.graph = after (root :: rest) ∧ out.graph[0]? = some (gNode root (some 0) root.1) ∧
      ∀ q ∈ root :: rest, ∀ c ∈ q.2, ∀ k : Nat, (k : Int) < 2 → sampleValue out.sampled q.1 c.1 k = some (.scalar c.2) := by
  have hph : FullRunSpec.Physical (before (root :: rest)) 0 := by
    refine ⟨_, rfl, fun p hp => ?_⟩
    obtain ⟨x, hx⟩ := hE p hp
    exact ⟨_, List.mem_map.2 ⟨_, hx, rfl⟩⟩
  obtain ⟨r, hsp, hnum, hst, hall⟩ := hS
  have hnd : (after (root :: rest))[0]? = some (gNode root (some 0) root.1) := by simp [after]
  obtain ⟨hsh, _⟩ := base_parts (g_graph hn) hph hsp hnd
  have hval : ∀ q ∈ root :: rest, ∀ c ∈ q.2, ∀ k : Nat, (k : Int) < 2 → sampleValue r.gs q.1 c.1 k = some (.scalar c.2) := by
    intro q hq c hc k hk
    unfold sampleValue
    rw [if_neg (by omega), read_eq_look _ hsh]
    unfold look
    rw [hst q hq, Option.bind_some, c_params (hn q hq) hc]
    have : k = 0 ∨ k = 1 := by omega
    rcases this with rfl | rfl <;> rfl
  have hat : ∀ p ∈ ["ra".toList, "dec".toList, "t0".toList, "redshift".toList], ∃ x, ∀ k : Nat, (k : Int) < 2 → sampleValue r.gs root.1 p k = some (.scalar x) := by
    intro p hp
    obtain ⟨x, hx⟩ := hE p hp
    exact ⟨x, fun k hk => hval root (by simp) (p, x) hx k hk⟩
  obtain ⟨out, ho⟩ := C119_answers (isBand := isBand) (ev := ev) draw (g_graph hn) hph (n := 2) (by norm_num) (args := [lsstArg]) (paramCols := [])
    (offset := some [some 1, none]) hsp hnd (Or.inr (by simp))
    (by
      intro k hk node p x hx
      unfold sampleValue at hx
      rw [if_neg (by omega), read_eq_look _ hsh] at hx
      cases hl : look r.gs node p with
      | none => rw [hl] at hx; cases hx
      | some v =>
        have hl' := hl
        unfold look at hl'
        cases hd : r.gs.states.get? node with
        | none => rw [hd] at hl'; cases hl'
        | some d =>
          rw [hd, Option.bind_some] at hl'
          obtain ⟨q0, _, h1⟩ := hall _ (Dict.mem_of_get? hd)
          cases h1
          obtain ⟨q, _, h2⟩ := List.mem_map.1 (Dict.mem_of_get? hl')
          have : k = 0 ∨ k = 1 := by omega
          rw [hl] at hx
          obtain ⟨-, rfl⟩ := Prod.mk.inj h2
          rcases this with rfl | rfl <;> exact Or.inr ⟨_, (Option.some.inj hx).symm⟩)
    (fun k hk => by
      obtain ⟨x, hx⟩ := hat "ra".toList (by simp)
      obtain ⟨y, hy⟩ := hat "dec".toList (by simp)
      exact ⟨x, y, hx k hk, hy k hk⟩)
    (Or.inr ⟨_, _, rfl, fun k hk => by obtain ⟨x, hx⟩ := hat "t0".toList (by simp); exact ⟨x, hx k hk⟩⟩)
    (by intro c hc; cases hc) (by intro c hc; cases hc)
    (by
      intro st k hk hso a ha F hF
      rw [List.mem_singleton] at ha
      subst ha
      have : F = ["g".toList] := by
        have e : lsstArg.table.cols.get? "filter".toList = some (["g".toList].map .str) := rfl
        rw [e] at hF
        exact (List.map_injective_iff.2 (fun x y e => by cases e; rfl) (Option.some.inj hF)).symm
      subst this
      refine hans st fun q hq c hc => ?_
      rw [hso q.1 c.1, hval q hq c hc k hk]
      rfl)
    (by intro a ha; rw [List.mem_singleton] at ha; subst ha; exact lsst_sound.table)
  have hgs : out.graph = after (root :: rest) ∧ out.sampled = r.gs := by
    obtain ⟨run, _, _, _, _, _, _, h1, h2, _⟩ := run_parts ho
    rw [hsp] at h1
    have h3 := Except.ok.inj h1
    exact ⟨(congrArg Prod.fst h3).symm, h2.trans (congrArg (fun q => q.2.gs) h3).symm⟩
  exact ⟨hph, out, ho, hgs.1, by rw [hgs.1]; exact hnd, fun q hq c hc k hk => by rw [hgs.2]; exact hval q hq c hc k hk⟩

end LCL.ConstGraph
