import Verif.Model.SniaSource
import Verif.Lemmas.Kernel
import Verif.Lemmas.PhysicalInit
import Verif.Props.Nodes1
import Verif.Props.Nodes2
import Verif.Props.Nodes3
import Verif.Props.NodeApi
import Verif.Props.Generate
import Verif.Props.RandomNodes

namespace LCL.SniaSourceProps
open LCL LCL.PhysicalInit LCL.RandomNodes LCL.SniaSource LCL.NodeSpec LCL.GraphSpec
set_option maxRecDepth 100000
variable {ρ U : Type}

/-- The graph `construct_snia_source` builds. -/
noncomputable def graph (G : RStream ρ U) (L : Laws U) (tmin tmax : ℝ) : Heap ℝ (Gens ρ) :=
  match construct G L tmin tmax with
  | .ok H => H
  | .error _ => []

theorem construct_eq (G : RStream ρ U) (L : Laws U) (tmin tmax : ℝ) : construct G L tmin tmax = .ok (graph G L tmin tmax) := by krfl

/-- What matters of a node when its parameters are sampled. -/
structure Core (ρ : Type) where
  label : Option Name
  isFunc : Bool
  body : Option (Body ℝ (Gens ρ))
  setters : List (Name × Setter ℝ)
  argNames : List Name
  outputs : List Name

def core (nd : PNode ℝ (Gens ρ)) : Core ρ := ⟨nd.label, nd.isFunc, nd.body, nd.setters, nd.argNames, nd.outputs⟩

def s (x : String) : Name := x.toList
def lnk (d : Nat) : Setter ℝ := ⟨.funcNode d resultName, false⟩
def ref (d : Nat) (q : Name) : Setter ℝ := ⟨.modelParam d q, false⟩
def cst (x : ℝ) : Setter ℝ := ⟨.const (.scalar x), true⟩
def res : Name × Setter ℝ := (resultName, ⟨.computeOut resultName, false⟩)

/-- A function node as built by the constructors: arguments, then the result. -/
def fn (label : Option Name) (b : Body ℝ (Gens ρ)) (args : List (Name × Setter ℝ)) : Core ρ :=
  ⟨label, true, some b, args ++ [res], args.map (·.1), [resultName]⟩

noncomputable def cores (G : RStream ρ U) (L : Laws U) (tmin tmax : ℝ) : List (Core ρ) :=
  let low : Name := s "low"; let high : Name := s "high"; let loc : Name := s "loc"; let scale : Name := s "scale"
  [fn none (npBody G (uniformLaw L) 0 [low, high]) [(low, cst (-1 / 2)), (high, cst (1 / 2))],
   fn none (npBody G (uniformLaw L) 1 [low, high]) [(low, cst (-1 / 2)), (high, cst (1 / 2))],
   fn none (npBody G (uniformLaw L) 2 [low, high]) [(low, cst 7), (high, cst 12)],
   fn none (pdfBody G L.zinv 3) [],
   ⟨some (s "host"), false, none,
     [(s "ra", lnk 0), (s "dec", lnk 1), (s "redshift", lnk 3), (s "t0", ⟨.const .none, true⟩), (s "distance", ⟨.const .none, false⟩), (s "hostmass", lnk 2)], [], []⟩,
   fn none (distmodBody L.lumDist) [(s "redshift", ref 4 (s "redshift"))],
   fn none (stretchBody G L 6) [(s "hostmass", ref 4 (s "hostmass"))],
   fn none (npBody G (normalLaw L) 7 [loc, scale]) [(loc, cst 0), (scale, cst (2 / 100))],
   fn none (npBody G (normalLaw L) 8 [loc, scale]) [(loc, cst (-193 / 10)), (scale, cst (1 / 10))],
   fn (some (s "x0_func")) x0Body [(s "distmod", lnk 5), (s "x1", lnk 6), (s "c", lnk 7), (s "alpha", cst (14 / 100)), (s "beta", cst (31 / 10)), (s "m_abs", lnk 8)],
   fn none (npBody G (uniformLaw L) 10 [low, high]) [(low, cst tmin), (high, cst tmax)],
   fn none (npBody G (normalLaw L) 11 [loc, scale]) [(loc, ref 4 (s "ra")), (scale, cst (1 / 100))],
   fn none (npBody G (normalLaw L) 12 [loc, scale]) [(loc, ref 4 (s "dec")), (scale, cst (1 / 100))],
   ⟨some (s "source"), false, none,
     [(s "ra", lnk 11), (s "dec", lnk 12), (s "redshift", ref 4 (s "redshift")), (s "t0", lnk 10), (s "distance", ⟨.const .none, false⟩), (s "x0", lnk 9), (s "x1", lnk 6),
      (s "c", lnk 7)], [], []⟩]

theorem graph_cores (G : RStream ρ U) (L : Laws U) (tmin tmax : ℝ) : (graph G L tmin tmax).map core = cores G L tmin tmax := by krfl

/-! ## The graph is well formed and everything is reachable -/

/-- The calls of the constructors, in order. -/
noncomputable def calls (G : RStream ρ U) (L : Laws U) (tmin tmax : ℝ) : List (ApiOp ℝ (Gens ρ)) :=
  hostNodes G L ++ headOps "SNIaHost".toList physAttrs 4 { (hostArgs : Args ℝ (Gens ρ)) with extra := [("hostmass".toList, .node 2)] } ++
    tailOps 4 5 { (hostArgs : Args ℝ (Gens ρ)) with extra := [("hostmass".toList, .node 2)] } ++
    [.addParameter 4 "hostmass".toList (.const .none) none [("hostmass".toList, .node 2)]] ++
    sourceNodes G L tmin tmax ++ headOps "SncosmoWrapperModel".toList physAttrs 13 sourceArgs ++ tailOps 13 14 sourceArgs ++ extraOps

theorem graph_calls (G : RStream ρ U) (L : Laws U) (tmin tmax : ℝ) : Heap.applyAll [] (calls G L tmin tmax) = graph G L tmin tmax := by krfl

/-- Not a call of `set_parameter`. -/
def notSet : ApiOp ℝ (Gens ρ) → Bool
  | .setParameter _ _ _ _ => false
  | _ => true

theorem calls_notSet (G : RStream ρ U) (L : Laws U) (tmin tmax : ℝ) : (calls G L tmin tmax).all notSet = true := by krfl

theorem root_pos (G : RStream ρ U) (L : Laws U) (tmin tmax : ℝ) : (graph G L tmin tmax)[13]?.map (fun nd => nd.pos) = some none := by krfl

/-- A character does not occur in a name. -/
def lacks (c : Char) (l : Name) : Bool := l.all fun x => x != c

/-- Names: a label without dots and colons, or a function node with a function name, all without dots. -/
def nameOK (nd : PNode ℝ (Gens ρ)) : Bool :=
  match nd.label with
  | some l => lacks '.' l && lacks ':' l
  | none => nd.isFunc && lacks '.' nd.cls && match nd.funcName with | some f => lacks '.' f | none => false

theorem names_ok (G : RStream ρ U) (L : Laws U) (tmin tmax : ℝ) : (graph G L tmin tmax).all nameOK = true := by krfl

/-- Parameters of a node: names without dots; defined; read from earlier nodes that have the parameter; arguments are parameters. -/
def coreOK (l : List (Core ρ)) (k : Nat) (c : Core ρ) : Bool :=
  c.setters.all (fun q => lacks '.' q.1 && match q.2.src with
    | .modelParam d x => decide (d < k) && (match l[d]? with | some dc => (dc.setters.map (·.1)).contains x | none => false)
    | .funcNode d x => decide (d < k) && (match l[d]? with | some dc => (dc.setters.map (·.1)).contains x | none => false)
    | .undefined => false
    | _ => true) &&
  c.argNames.all (fun a => (c.setters.map (·.1)).contains a)

theorem cores_ok (G : RStream ρ U) (L : Laws U) (tmin tmax : ℝ) : ((cores G L tmin tmax).zipIdx.all fun q => coreOK (cores G L tmin tmax) q.2 q.1) = true := by krfl

theorem labels_ok (G : RStream ρ U) (L : Laws U) (tmin tmax : ℝ) : (cores G L tmin tmax).map (·.label) =
    [none, none, none, none, some (s "host"), none, none, none, none, some (s "x0_func"), none, none, none, some (s "source")] := by rfl

attribute [irreducible] graph calls

theorem graphOK (G : RStream ρ U) (L : Laws U) (tmin tmax : ℝ) : GraphOK (graph G L tmin tmax) := by
  rw [← graph_calls]
  refine (ApiProps.C59_wellformed _ (InitLemmas.keeps_notSet _ _ ?_)).1
  intro op hop
  have := List.all_eq_true.1 (calls_notSet G L tmin tmax) op hop
  cases op <;> first | trivial | cases this

theorem core_at {H : Heap ℝ (Gens ρ)} {l : List (Core ρ)} (h : H.map core = l) {k : Nat} {c : Core ρ} (hc : l[k]? = some c) :
    ∃ nd, H[k]? = some nd ∧ core nd = c := by
  rw [← h, List.getElem?_map] at hc
  obtain ⟨nd, h1, h2⟩ := Option.map_eq_some_iff.1 hc
  exact ⟨nd, h1, h2⟩

theorem reads_of {H : Heap ℝ (Gens ρ)} {l : List (Core ρ)} (h : H.map core = l) {a b : Nat} {c : Core ρ} (hc : l[a]? = some c) {p q : Name} {f : Bool}
    (hm : (p, (⟨.modelParam b q, f⟩ : Setter ℝ)) ∈ c.setters ∨ (p, (⟨.funcNode b q, f⟩ : Setter ℝ)) ∈ c.setters) : Reads H a b := by
  obtain ⟨nd, h1, rfl⟩ := core_at h hc
  rcases hm with hm | hm
  · exact ⟨nd, p, _, h1, hm, Or.inl ⟨q, rfl⟩⟩
  · exact ⟨nd, p, _, h1, hm, Or.inr ⟨q, rfl⟩⟩

theorem reach_all {H : Heap ℝ (Gens ρ)} (G : RStream ρ U) (L : Laws U) (tmin tmax : ℝ) (h : H.map core = cores G L tmin tmax) :
    ∀ k : Nat, k < 14 → Reach H [13] k := by
  have h13 : Reach H [13] 13 := .root (by simp)
  have h4 : Reach H [13] 4 := .step h13 (reads_of h (c := _) (p := s "redshift") (q := s "redshift") (f := false) rfl (Or.inl (by simp [ref])))
  have f (p : Name) (b : Nat) (hm : (p, lnk b) ∈ [(s "ra", lnk 11), (s "dec", lnk 12), (s "t0", lnk 10), (s "x0", lnk 9), (s "x1", lnk 6), (s "c", lnk 7)]) : Reach H [13] b := by
    refine .step h13 (reads_of h (c := _) (p := p) (q := resultName) (f := false) rfl (Or.inr ?_))
    simp only [List.mem_cons, List.not_mem_nil, or_false] at hm
    rcases hm with hm | hm | hm | hm | hm | hm <;> (cases hm; simp [lnk])
  have h9 : Reach H [13] 9 := f (s "x0") 9 (by simp)
  have g (p : Name) (b : Nat) (hm : (p, lnk b) ∈ [(s "ra", lnk 0), (s "dec", lnk 1), (s "redshift", lnk 3), (s "hostmass", lnk 2)]) : Reach H [13] b := by
    refine .step h4 (reads_of h (c := _) (p := p) (q := resultName) (f := false) rfl (Or.inr ?_))
    simp only [List.mem_cons, List.not_mem_nil, or_false] at hm
    rcases hm with hm | hm | hm | hm <;> (cases hm; simp [lnk])
  have e (p : Name) (b : Nat) (hm : (p, lnk b) ∈ [(s "distmod", lnk 5), (s "m_abs", lnk 8)]) : Reach H [13] b := by
    refine .step h9 (reads_of h (c := _) (p := p) (q := resultName) (f := false) rfl (Or.inr ?_))
    simp only [List.mem_cons, List.not_mem_nil, or_false] at hm
    rcases hm with hm | hm <;> (cases hm; simp [lnk, fn])
  intro k hk
  match k, hk with
  | 0, _ => exact g (s "ra") 0 (by simp)
  | 1, _ => exact g (s "dec") 1 (by simp)
  | 2, _ => exact g (s "hostmass") 2 (by simp)
  | 3, _ => exact g (s "redshift") 3 (by simp)
  | 4, _ => exact h4
  | 5, _ => exact e (s "distmod") 5 (by simp)
  | 6, _ => exact f (s "x1") 6 (by simp)
  | 7, _ => exact f (s "c") 7 (by simp)
  | 8, _ => exact e (s "m_abs") 8 (by simp)
  | 9, _ => exact h9
  | 10, _ => exact f (s "t0") 10 (by simp)
  | 11, _ => exact f (s "ra") 11 (by simp)
  | 12, _ => exact f (s "dec") 12 (by simp)
  | 13, _ => exact h13

/-! ## Values of parameters -/

theorem entry_pack {n : Nat} (f : Nat → ℝ) {i : Nat} (hi : i < n) : entry (pack n f) i = f i := by
  unfold pack
  by_cases hn : n = 1
  · subst hn
    have : i = 0 := by omega
    subst this
    rfl
  · rw [if_neg hn]
    simp only [entry, List.getElem?_map, List.getElem?_range hi, Option.map_some]

theorem stored_pack {n : Nat} (f : Nat → ℝ) {w : Val ℝ} (h : storedAs n (pack n f) w) : w = pack n f := by
  rcases h with ⟨_, rfl⟩ | ⟨hn, rows, rfl, _, h | ⟨a, h, _⟩⟩
  · rfl
  · exact h.symm
  · rw [pack, if_neg hn] at h; cases h

theorem pack_stored (n : Nat) (f : Nat → ℝ) : storedAs n (pack n f) (pack n f) := by
  by_cases hn : n = 1
  · exact Or.inl ⟨hn, rfl⟩
  · exact Or.inr ⟨hn, (List.range n).map fun i => .scalar (f i), by rw [pack, if_neg hn], by simp, Or.inl (by rw [pack, if_neg hn])⟩

theorem repeated_pack {n : Nat} {x : ℝ} {w : Val ℝ} (h : Repeated n (.scalar x) w) : w = pack n fun _ => x := by
  rcases h with ⟨hn, rfl⟩ | ⟨hn, rows, rfl, hl, hr⟩
  · rw [pack, if_pos hn]
  · rw [pack, if_neg hn]
    congr 1
    apply List.ext_getElem (by simp [hl])
    intro i h1 h2
    rw [List.getElem_map, hr _ (List.getElem_mem h1)]

theorem pack_congr {n : Nat} {f g : Nat → ℝ} (hn : 0 < n) (h : ∀ i, i < n → f i = g i) : pack n f = pack n g := by
  unfold pack
  split
  · rw [h 0 hn]
  · congr 1
    exact List.map_congr_left fun i hi => by rw [h i (List.mem_range.1 hi)]

/-- What sampling the graph guarantees: `H'` is the graph with its positions set. -/
structure Sampled (G : RStream ρ U) (L : Laws U) (tmin tmax : ℝ) (n : Nat) (H' : Heap ℝ (Gens ρ)) (r : Heap.Run ℝ (Gens ρ)) : Prop where
  cores : H'.map core = cores G L tmin tmax
  names : ∀ (k : Nat) nd l, H'[k]? = some nd → nd.label = some l → nd.str = l
  eqs : ∀ (k : Nat) nd, k < 14 → H'[k]? = some nd → ∀ p st, (p, st) ∈ nd.setters → Equation H' r.gs r.calls k nd p st.src
  once : ∀ c ∈ r.calls, ∃ nd f w1 w2, H'[c.1]? = some nd ∧ nd.body = some f ∧ f w1 n c.2.1 = (w2, .ok c.2.2)
  num : r.gs.numSamples = n

theorem thread_mem {H : Heap ℝ (Gens ρ)} {n : Nat} {w w' : Gens ρ} {l : List (NodeId × Dict Name (Val ℝ) × Val ℝ)} (h : Thread H n w l w') :
    ∀ c ∈ l, ∃ nd f w1 w2, H[c.1]? = some nd ∧ nd.body = some f ∧ f w1 n c.2.1 = (w2, .ok c.2.2) := by
  induction h with
  | nil => intro c hc; cases hc
  | snoc _ h1 h2 h3 ih =>
    intro c hc
    rcases List.mem_append.1 hc with hc | hc
    · exact ih c hc
    · simp only [List.mem_singleton] at hc
      subst hc
      exact ⟨_, _, _, _, h1, h2, h3⟩

theorem assign_cores (H : Heap ℝ (Gens ρ)) (order : List NodeId) : (Heap.assign H order).map core = H.map core := by
  apply List.ext_getElem?
  intro i
  rw [List.getElem?_map, List.getElem?_map, Heap.assign, List.getElem?_mapIdx]
  cases H[i]? with
  | none => rfl
  | some nd =>
    simp only [Option.map_some]
    split <;> rfl

theorem positions (G : RStream ρ U) (L : Laws U) (tmin tmax : ℝ) :
    ∃ H', Heap.setPositions (graph G L tmin tmax) [13] = .ok H' ∧ GraphOK H' ∧ H'.map core = cores G L tmin tmax ∧
      ∀ (k : Nat) nd l, H'[k]? = some nd → nd.label = some l → nd.str = l := by
  have hlen : (graph G L tmin tmax).length = 14 := by
    have := congrArg List.length (graph_cores G L tmin tmax)
    simpa [cores] using this
  obtain ⟨H', K, h1, h2, _, h4, _⟩ := NodeProps.C11_positions (graphOK G L tmin tmax) 13 [] (by intro x hx; simp at hx; subst hx; rw [hlen]; decide)
  refine ⟨H', h1, ?_⟩
  have ha : ∃ order, H' = Heap.assign (graph G L tmin tmax) order := by
    unfold Heap.setPositions at h1
    cases hv : Heap.visitAll (graph G L tmin tmax) [13] with
    | error e => rw [hv] at h1; cases h1
    | ok order => rw [hv] at h1; cases h1; exact ⟨order, rfl⟩
  obtain ⟨order, rfl⟩ := ha
  refine ⟨GenerateProps.graphOK_assign (graphOK G L tmin tmax) order, ?_, ?_⟩
  · rw [assign_cores, graph_cores]
  · intro k nd l hk hl
    have hk14 : k < 14 := by
      have := (List.getElem?_eq_some_iff.1 hk).1
      rw [h2, hlen] at this
      exact this
    obtain ⟨nd0, e0⟩ : ∃ nd0, (graph G L tmin tmax)[k]? = some nd0 := ⟨_, List.getElem?_eq_getElem (by rw [hlen]; exact hk14)⟩
    obtain ⟨j, _, e⟩ := h4 k nd0 (reach_all G L tmin tmax (graph_cores G L tmin tmax) k hk14) e0
    rw [hk] at e
    cases e
    simp only at hl ⊢
    rw [hl]

theorem sampled {G : RStream ρ U} {L : Laws U} {tmin tmax : ℝ} {n : Nat} {w : Gens ρ} {H' : Heap ℝ (Gens ρ)} {r : Heap.Run ℝ (Gens ρ)}
    (h : Heap.sampleParameters (graph G L tmin tmax) 13 [] none n w = .ok (H', r)) : Sampled G L tmin tmax n H' r := by
  obtain ⟨H1, e1, e2, e3, e4⟩ := positions G L tmin tmax
  have hp := root_pos G L tmin tmax
  unfold Heap.sampleParameters at h
  cases h13 : (graph G L tmin tmax)[13]? with
  | none => rw [h13] at hp; cases hp
  | some nd =>
    rw [h13] at hp h
    simp only [Option.map_some, Option.some.injEq] at hp
    simp only [hp, if_true, e1, bind, Except.bind, pure, Except.pure, List.nil_append] at h
    cases hs : Heap.sampleFrom H1 [13] none (n : Int) w with
    | error e => rw [hs] at h; cases h
    | ok r' =>
      rw [hs] at h
      cases h
      have hnum := (NodeProps.C14_complete e2 (given := none) trivial hs).1
      have hnum' : r.gs.numSamples = n := by exact_mod_cast hnum
      refine ⟨e3, e4, ?_, ?_, hnum'⟩
      · intro k nd hk hnd p st hm
        exact NodeProps.C12_equations e2 (given := none) trivial hs k nd (reach_all G L tmin tmax e3 k hk) hnd p st hm (by rintro ⟨v, hv⟩; exact hv)
      · have := (NodeProps.C12_each_once e2 (given := none) trivial hs).2.2
        rw [hnum'] at this
        exact thread_mem this

/-- The sampled value of parameter `p` of node `k`. -/
def value (H' : Heap ℝ (Gens ρ)) (gs : GState ℝ) (k : Nat) (p : Name) : Option (Val ℝ) :=
  match H'[k]? with
  | some nd => readParam gs nd.str p
  | none => none

variable {G : RStream ρ U} {L : Laws U} {tmin tmax : ℝ} {n : Nat} {H' : Heap ℝ (Gens ρ)} {r : Heap.Run ℝ (Gens ρ)}

theorem value_label (hS : Sampled G L tmin tmax n H' r) {k : Nat} {c : Core ρ} {l : Name} (hc : (cores G L tmin tmax)[k]? = some c) (hl : c.label = some l) (p : Name) :
    value H' r.gs k p = readParam r.gs l p := by
  obtain ⟨nd, h1, rfl⟩ := core_at hS.cores hc
  unfold value
  rw [h1]
  simp only
  rw [hS.names k nd l h1 hl]

theorem value_link (hS : Sampled G L tmin tmax n H' r) {k : Nat} (hk : k < 14) {c : Core ρ} (hc : (cores G L tmin tmax)[k]? = some c) {p q : Name} {d : Nat}
    (hm : (p, ref d q) ∈ c.setters ∨ (p, lnk d) ∈ c.setters ∧ q = resultName) :
    ∃ v, value H' r.gs k p = some v ∧ value H' r.gs d q = some v := by
  obtain ⟨nd, h1, rfl⟩ := core_at hS.cores hc
  rcases hm with hm | ⟨hm, rfl⟩
  · obtain ⟨dn, v, e1, e2, e3⟩ := hS.eqs k nd hk h1 p _ hm
    exact ⟨v, by unfold value; rw [h1]; exact e3, by unfold value; rw [e1]; exact e2⟩
  · obtain ⟨dn, v, e1, e2, e3⟩ := hS.eqs k nd hk h1 p _ hm
    exact ⟨v, by unfold value; rw [h1]; exact e3, by unfold value; rw [e1]; exact e2⟩

theorem value_const (hS : Sampled G L tmin tmax n H' r) {k : Nat} (hk : k < 14) {c : Core ρ} (hc : (cores G L tmin tmax)[k]? = some c) {p : Name} {x : ℝ}
    (hm : (p, cst x) ∈ c.setters) : value H' r.gs k p = some (pack n fun _ => x) := by
  obtain ⟨nd, h1, rfl⟩ := core_at hS.cores hc
  obtain ⟨v, e1, e2⟩ := hS.eqs k nd hk h1 p _ hm
  unfold value
  rw [h1]
  simp only
  rw [hS.num] at e2
  rw [e1, repeated_pack e2]

theorem value_out (hS : Sampled G L tmin tmax n H' r) {k : Nat} (hk : k < 14) {label : Option Name} {b : Body ℝ (Gens ρ)} {as : List (Name × Setter ℝ)}
    (hc : (cores G L tmin tmax)[k]? = some (fn label b as)) :
    ∃ w1 w2 args v u, b w1 n args = (w2, .ok v) ∧ storedAs n v u ∧ value H' r.gs k resultName = some u ∧
      ∀ a ∈ as.map (·.1), ∃ x, value H' r.gs k a = some x ∧ args.get? a = some x := by
  obtain ⟨nd, h1, h2⟩ := core_at hS.cores hc
  have hset : nd.setters = as ++ [res] := congrArg Core.setters h2
  have hbody : nd.body = some b := congrArg Core.body h2
  have hargs : nd.argNames = as.map (·.1) := congrArg Core.argNames h2
  have hout : nd.outputs = [resultName] := congrArg Core.outputs h2
  obtain ⟨args, v, u, x, e1, e2, e3, e4, e5⟩ := hS.eqs k nd hk h1 resultName _ (by rw [hset]; exact List.mem_append_right _ (List.mem_singleton_self res))
  obtain ⟨nd', f, w1, w2, f1, f2, f3⟩ := hS.once _ e1
  rw [h1] at f1; cases f1
  rw [hbody] at f2; cases f2
  have hv : u = v := by
    rw [hout] at e3
    rcases e3 with ⟨_, h⟩ | ⟨h, _⟩
    · exact h
    · simp at h
  subst hv
  refine ⟨w1, w2, args, u, x, f3, by rw [hS.num] at e4; exact e4, by unfold value; rw [h1]; exact e5, ?_⟩
  intro a ha
  obtain ⟨y, g1, g2⟩ := e2.1 a (by rw [hargs]; exact ha)
  exact ⟨y, by unfold value; rw [h1]; exact g1, g2⟩

/-! ## What the functions return -/

theorem np_total (dist : List (Name × ℝ) → U → ℝ) (k : Nat) (names : List Name) (w : Gens ρ) (n : Nat) (args : Dict Name (Val ℝ)) :
    ∃ w2 f g, npBody G dist k names w n args = (w2, .ok (pack n f)) ∧ ∀ i, i < n → f i = dist (names.map fun p => (p, argAt args p i)) (G.val g i) := by
  cases hi : w.info with
  | none =>
    obtain ⟨a, _, h2, _, h4⟩ := RandomProps.C86_scalar G dist (names.map fun p => (p, argAt args p)) n (w.own k) (w.own k)
    refine ⟨w.put k (G.adv (w.own k) n) none, fun i => a.get (if n = 1 then [] else [i]), w.own k, ?_, ?_⟩
    · unfold npBody
      rw [hi, h2]
    · intro i hi
      beta_reduce
      rw [h4 i hi, List.map_map]
      rfl
  | some g =>
    obtain ⟨a, h1, _, _, h4⟩ := RandomProps.C86_scalar G dist (names.map fun p => (p, argAt args p)) n (w.own k) g
    refine ⟨w.put k (w.own k) (some (G.adv g n)), fun i => a.get (if n = 1 then [] else [i]), g, ?_, ?_⟩
    · unfold npBody
      rw [hi, h1]
    · intro i hi
      beta_reduce
      rw [h4 i hi, List.map_map]
      rfl

theorem hostmass_total (m : Nat → ℝ) (n : Nat) (own : ρ) (info : Option ρ) :
    ∃ f : Nat → ℝ, outVal (hostmassCompute G L.heavy L.light m n own info).2.2 = pack n f ∧
      ∀ i, ∃ u, (10 ≤ m i → f i = L.heavy u) ∧ (m i < 10 → f i = L.light u) := by
  classical
  by_cases hn : n = 1
  · refine ⟨fun i => if 10 ≤ m i then L.heavy (G.val (info.getD own) 0) else L.light (G.val (info.getD own) 0), ?_, ?_⟩
    · subst hn
      cases info <;> simp [hostmassCompute, outVal, pack]
    · intro i
      exact ⟨_, fun h => if_pos h, fun h => if_neg (not_le.2 h)⟩
  · refine ⟨fun i => if 10 ≤ m i then
        L.heavy (G.val (info.getD own) ((List.range i).filter fun j => decide (10 ≤ m j) == decide (10 ≤ m i)).length)
      else L.light (G.val (info.getD own) (((List.range n).filter fun j => decide (10 ≤ m j)).length +
        ((List.range i).filter fun j => decide (10 ≤ m j) == decide (10 ≤ m i)).length)), ?_, ?_⟩
    · unfold hostmassCompute
      rw [pack, if_neg hn]
      cases info <;> simp [hn, outVal]
    · intro i
      by_cases h : 10 ≤ m i
      · exact ⟨_, fun _ => if_pos h, fun h' => absurd h (not_le.2 h')⟩
      · exact ⟨_, fun h' => absurd h' h, fun _ => if_neg h⟩

theorem stretch_total (k : Nat) (w : Gens ρ) (n : Nat) (args : Dict Name (Val ℝ)) :
    ∃ w2 f, stretchBody G L k w n args = (w2, .ok (pack n f)) ∧
      ∀ i, ∃ u, (10 ≤ argAt args "hostmass".toList i → f i = L.heavy u) ∧ (argAt args "hostmass".toList i < 10 → f i = L.light u) := by
  obtain ⟨f, h1, h2⟩ := hostmass_total (G := G) (L := L) (argAt args "hostmass".toList) n (w.own k) w.info
  exact ⟨_, f, congrArg (fun v => (_, Except.ok v)) h1, h2⟩

theorem pdf_total (inv : U → ℝ) (k : Nat) (w : Gens ρ) (n : Nat) (args : Dict Name (Val ℝ)) :
    ∃ w2 g, pdfBody G inv k w n args = (w2, .ok (pack n fun i => inv (G.val g i))) := ⟨_, _, rfl⟩

/-! ## The claim -/

/-- Parameter `p` of node `node` has the value `f i` in sample `i`: a number for one sample, an array otherwise. -/
def Column (gs : GState ℝ) (n : Nat) (node p : String) (f : Nat → ℝ) : Prop :=
  readParam gs node.toList p.toList = some (if n = 1 then .scalar (f 0) else .arr ((List.range n).map fun i => .scalar (f i)))

theorem np_value (hS : Sampled G L tmin tmax n H' r) {k : Nat} (hk : k < 14) {dist : List (Name × ℝ) → U → ℝ} {a b : Name} {sa sb : Setter ℝ}
    (hc : (cores G L tmin tmax)[k]? = some (fn none (npBody G dist k [a, b]) [(a, sa), (b, sb)])) {fa fb : Nat → ℝ}
    (ha : value H' r.gs k a = some (pack n fa)) (hb : value H' r.gs k b = some (pack n fb)) :
    ∃ f, value H' r.gs k resultName = some (pack n f) ∧ ∀ i, i < n → ∃ u, f i = dist [(a, fa i), (b, fb i)] u := by
  obtain ⟨w1, w2, args, v, u, e1, e2, e3, e4⟩ := value_out hS hk hc
  obtain ⟨w2', f, g, f1, f2⟩ := np_total (G := G) dist k [a, b] w1 n args
  rw [f1] at e1
  cases e1
  have := stored_pack f e2
  subst this
  refine ⟨f, e3, ?_⟩
  intro i hi
  refine ⟨G.val g i, ?_⟩
  rw [f2 i hi]
  obtain ⟨x, g1, g2⟩ := e4 a (by simp)
  obtain ⟨y, g3, g4⟩ := e4 b (by simp)
  rw [ha] at g1; cases g1
  rw [hb] at g3; cases g3
  simp only [List.map_cons, List.map_nil, argAt, g2, g4, entry_pack _ hi]

theorem link_value (hS : Sampled G L tmin tmax n H' r) {k : Nat} (hk : k < 14) {c : Core ρ} (hc : (cores G L tmin tmax)[k]? = some c) {p q : Name} {d : Nat}
    (hm : (p, ref d q) ∈ c.setters ∨ (p, lnk d) ∈ c.setters ∧ q = resultName) {v : Val ℝ} (hv : value H' r.gs d q = some v) : value H' r.gs k p = some v := by
  obtain ⟨x, h1, h2⟩ := value_link hS hk hc hm
  rw [hv] at h2; cases h2
  exact h1

/-- C118. Whenever the parameters of the example's supernova are sampled, host and supernova describe one object, sample by sample: they have the same redshift; the distance modulus behind the
brightness is that of this redshift; stretch and colour are the ones the brightness was computed with; the stretch comes from the distribution for the mass of this host; the supernova lies
near its host; the peak lies within the survey. -/
theorem C118_consistent {H : Heap ℝ (Gens ρ)} (hH : construct G L tmin tmax = .ok H) {w : Gens ρ} (h : Heap.sampleParameters H 13 [] none n w = .ok (H', r)) :
    ∃ z mass x1 c mAbs mu t0 ra dec hra hdec x0 : Nat → ℝ,
      (Column r.gs n "host" "redshift" z ∧ Column r.gs n "source" "redshift" z ∧ Column r.gs n "host" "hostmass" mass ∧
       Column r.gs n "x0_func" "x1" x1 ∧ Column r.gs n "source" "x1" x1 ∧ Column r.gs n "x0_func" "c" c ∧ Column r.gs n "source" "c" c ∧
       Column r.gs n "x0_func" "m_abs" mAbs ∧ Column r.gs n "x0_func" "distmod" mu ∧ Column r.gs n "source" "t0" t0 ∧
       Column r.gs n "source" "ra" ra ∧ Column r.gs n "source" "dec" dec ∧ Column r.gs n "host" "ra" hra ∧ Column r.gs n "host" "dec" hdec ∧
       Column r.gs n "source" "x0" x0) ∧
      ∀ i, i < n →
        mu i = 5 * Real.logb 10 |L.lumDist (z i)| + 25 ∧
        x0 i = (10 : ℝ) ^ (-0.4 * (mu i - 0.14 * x1 i + 3.1 * c i + mAbs i - 10.635) : ℝ) ∧
        (∃ u, z i = L.zinv u) ∧ (∃ u, mass i = 7 + 5 * L.unit u) ∧
        (∃ u, (10 ≤ mass i → x1 i = L.heavy u) ∧ (mass i < 10 → x1 i = L.light u)) ∧
        (∃ u, c i = 0.02 * L.normal u) ∧ (∃ u, mAbs i = -19.3 + 0.1 * L.normal u) ∧ (∃ u, t0 i = tmin + (tmax - tmin) * L.unit u) ∧
        (∃ u, hra i = -0.5 + L.unit u) ∧ (∃ u, hdec i = -0.5 + L.unit u) ∧
        (∃ u, ra i = hra i + 0.01 * L.normal u) ∧ (∃ u, dec i = hdec i + 0.01 * L.normal u) := by
  rw [construct_eq] at hH
  cases hH
  have hS := sampled h
  -- the host
  obtain ⟨hra, vra, fra⟩ := np_value hS (k := 0) (by decide) rfl (value_const hS (k := 0) (by decide) rfl (x := -1 / 2) (by simp [fn])) (value_const hS (k := 0) (by decide) rfl (x := 1 / 2) (by simp [fn]))
  obtain ⟨hdec, vdec, fdec⟩ := np_value hS (k := 1) (by decide) rfl (value_const hS (k := 1) (by decide) rfl (x := -1 / 2) (by simp [fn])) (value_const hS (k := 1) (by decide) rfl (x := 1 / 2) (by simp [fn]))
  obtain ⟨mass, vmass, fmass⟩ := np_value hS (k := 2) (by decide) rfl (value_const hS (k := 2) (by decide) rfl (x := 7) (by simp [fn])) (value_const hS (k := 2) (by decide) rfl (x := 12) (by simp [fn]))
  obtain ⟨w1, w2, args, v, u, e1, e2, e3, _⟩ := value_out hS (k := 3) (by decide) rfl
  obtain ⟨_, gz, hz⟩ := pdf_total (G := G) L.zinv 3 w1 n args
  rw [hz] at e1
  cases e1
  have := stored_pack _ e2
  subst this
  have hostz := link_value hS (k := 4) (by decide) rfl (p := s "redshift") (Or.inr ⟨by simp, rfl⟩) e3
  have hostra := link_value hS (k := 4) (by decide) rfl (p := s "ra") (Or.inr ⟨by simp, rfl⟩) vra
  have hostdec := link_value hS (k := 4) (by decide) rfl (p := s "dec") (Or.inr ⟨by simp, rfl⟩) vdec
  have hostmass := link_value hS (k := 4) (by decide) rfl (p := s "hostmass") (Or.inr ⟨by simp, rfl⟩) vmass
  -- distance modulus
  obtain ⟨w1d, w2d, argsd, vd, ud, d1, d2, d3, d4⟩ := value_out hS (k := 5) (by decide) rfl
  simp only [distmodBody, Prod.mk.injEq, Except.ok.injEq] at d1
  obtain ⟨_, rfl⟩ := d1
  have := stored_pack _ d2
  subst this
  obtain ⟨xz, d5, d6⟩ := d4 (s "redshift") (by simp)
  have d7 := link_value hS (k := 5) (by decide) rfl (p := s "redshift") (Or.inl (by simp [fn])) hostz
  rw [d7] at d5; cases d5
  -- stretch
  obtain ⟨w1s, w2s, argss, vs, us, s1, s2, s3, s4⟩ := value_out hS (k := 6) (by decide) rfl
  obtain ⟨_, x1, s5, s6⟩ := stretch_total (G := G) (L := L) 6 w1s n argss
  rw [s5] at s1
  cases s1
  have := stored_pack _ s2
  subst this
  obtain ⟨xm, s7, s8⟩ := s4 (s "hostmass") (by simp)
  have s9 := link_value hS (k := 6) (by decide) rfl (p := s "hostmass") (Or.inl (by simp [fn])) hostmass
  rw [s9] at s7; cases s7
  -- colour and absolute magnitude
  obtain ⟨c, vc, fc⟩ := np_value hS (k := 7) (by decide) rfl (value_const hS (k := 7) (by decide) rfl (x := 0) (by simp [fn])) (value_const hS (k := 7) (by decide) rfl (x := 2 / 100) (by simp [fn]))
  obtain ⟨mAbs, vm, fm⟩ := np_value hS (k := 8) (by decide) rfl (value_const hS (k := 8) (by decide) rfl (x := -193 / 10) (by simp [fn])) (value_const hS (k := 8) (by decide) rfl (x := 1 / 10) (by simp [fn]))
  -- brightness
  have xmu := link_value hS (k := 9) (by decide) rfl (p := s "distmod") (Or.inr ⟨by simp [fn], rfl⟩) d3
  have xx1 := link_value hS (k := 9) (by decide) rfl (p := s "x1") (Or.inr ⟨by simp [fn], rfl⟩) s3
  have xc := link_value hS (k := 9) (by decide) rfl (p := s "c") (Or.inr ⟨by simp [fn], rfl⟩) vc
  have xmab := link_value hS (k := 9) (by decide) rfl (p := s "m_abs") (Or.inr ⟨by simp [fn], rfl⟩) vm
  have xal := value_const hS (k := 9) (by decide) rfl (p := s "alpha") (x := 14 / 100) (by simp [fn])
  have xbe := value_const hS (k := 9) (by decide) rfl (p := s "beta") (x := 31 / 10) (by simp [fn])
  obtain ⟨w1x, w2x, argsx, vx, ux, x1', x2', x3', x4'⟩ := value_out hS (k := 9) (by decide) rfl
  simp only [x0Body, Prod.mk.injEq, Except.ok.injEq] at x1'
  obtain ⟨_, rfl⟩ := x1'
  have := stored_pack _ x2'
  subst this
  obtain ⟨a1, b1, c1⟩ := x4' (s "distmod") (by simp)
  obtain ⟨a2, b2, c2⟩ := x4' (s "x1") (by simp)
  obtain ⟨a3, b3, c3⟩ := x4' (s "c") (by simp)
  obtain ⟨a4, b4, c4⟩ := x4' (s "alpha") (by simp)
  obtain ⟨a5, b5, c5⟩ := x4' (s "beta") (by simp)
  obtain ⟨a6, b6, c6⟩ := x4' (s "m_abs") (by simp)
  rw [xmu] at b1; cases b1
  rw [xx1] at b2; cases b2
  rw [xc] at b3; cases b3
  rw [xal] at b4; cases b4
  rw [xbe] at b5; cases b5
  rw [xmab] at b6; cases b6
  -- time and position
  obtain ⟨t0, vt, ft⟩ := np_value hS (k := 10) (by decide) rfl (value_const hS (k := 10) (by decide) rfl (x := tmin) (by simp [fn])) (value_const hS (k := 10) (by decide) rfl (x := tmax) (by simp [fn]))
  obtain ⟨ra, wra, gra⟩ := np_value hS (k := 11) (by decide) rfl (link_value hS (k := 11) (by decide) rfl (p := s "loc") (Or.inl (by simp [fn])) hostra)
    (value_const hS (k := 11) (by decide) rfl (x := 1 / 100) (by simp [fn]))
  obtain ⟨dec, wdec, gdec⟩ := np_value hS (k := 12) (by decide) rfl (link_value hS (k := 12) (by decide) rfl (p := s "loc") (Or.inl (by simp [fn])) hostdec)
    (value_const hS (k := 12) (by decide) rfl (x := 1 / 100) (by simp [fn]))
  have srcz := link_value hS (k := 13) (by decide) rfl (p := s "redshift") (Or.inl (by simp)) hostz
  have srcra := link_value hS (k := 13) (by decide) rfl (p := s "ra") (Or.inr ⟨by simp, rfl⟩) wra
  have srcdec := link_value hS (k := 13) (by decide) rfl (p := s "dec") (Or.inr ⟨by simp, rfl⟩) wdec
  have srct := link_value hS (k := 13) (by decide) rfl (p := s "t0") (Or.inr ⟨by simp, rfl⟩) vt
  have srcx0 := link_value hS (k := 13) (by decide) rfl (p := s "x0") (Or.inr ⟨by simp, rfl⟩) x3'
  have srcx1 := link_value hS (k := 13) (by decide) rfl (p := s "x1") (Or.inr ⟨by simp, rfl⟩) s3
  have srcc := link_value hS (k := 13) (by decide) rfl (p := s "c") (Or.inr ⟨by simp, rfl⟩) vc
  rw [value_label hS (k := 4) rfl rfl] at hostz hostra hostdec hostmass
  rw [value_label hS (k := 9) rfl rfl] at xmu xx1 xc xmab
  rw [value_label hS (k := 13) rfl rfl] at srcz srcra srcdec srct srcx0 srcx1 srcc
  refine ⟨_, mass, x1, c, mAbs, _, t0, ra, dec, hra, hdec, _,
    ⟨hostz, srcz, hostmass, xx1, srcx1, xc, srcc, xmab, xmu, srct, srcra, srcdec, hostra, hostdec, srcx0⟩, ?_⟩
  intro i hi
  have q1 : argAt argsd "redshift".toList i = L.zinv (G.val gz i) := by
    change argAt argsd (s "redshift") i = _
    rw [argAt, d6]
    exact entry_pack _ hi
  have q2 : argAt argss "hostmass".toList i = mass i := by
    change argAt argss (s "hostmass") i = _
    rw [argAt, s8]
    exact entry_pack _ hi
  obtain ⟨u6, m1, m2⟩ := s6 i
  rw [q2] at m1 m2
  refine ⟨?_, ?_, ⟨_, rfl⟩, ?_, ⟨u6, m1, m2⟩, ?_, ?_, ?_, ?_, ?_, ?_, ?_⟩
  · rw [q1]; rfl
  · have p1 : argAt argsx "distmod".toList i = SnCoord.distmod L.lumDist (argAt argsd "redshift".toList i) := by
      change argAt argsx (s "distmod") i = _
      rw [argAt, c1]
      exact entry_pack _ hi
    have p2 : argAt argsx "x1".toList i = x1 i := by
      change argAt argsx (s "x1") i = _
      rw [argAt, c2]
      exact entry_pack _ hi
    have p3 : argAt argsx "c".toList i = c i := by
      change argAt argsx (s "c") i = _
      rw [argAt, c3]
      exact entry_pack _ hi
    have p4 : argAt argsx "alpha".toList i = 14 / 100 := by
      change argAt argsx (s "alpha") i = _
      rw [argAt, c4]
      exact entry_pack _ hi
    have p5 : argAt argsx "beta".toList i = 31 / 10 := by
      change argAt argsx (s "beta") i = _
      rw [argAt, c5]
      exact entry_pack _ hi
    have p6 : argAt argsx "m_abs".toList i = mAbs i := by
      change argAt argsx (s "m_abs") i = _
      rw [argAt, c6]
      exact entry_pack _ hi
    rw [p1, p2, p3, p4, p5, p6]
    unfold Salt2.x0FromDistmod
    norm_num
  · obtain ⟨u, hu⟩ := fmass i hi
    exact ⟨u, by rw [hu]; simp only [uniformLaw]; ring⟩
  · obtain ⟨u, hu⟩ := fc i hi
    exact ⟨u, by rw [hu]; simp only [normalLaw]; norm_num⟩
  · obtain ⟨u, hu⟩ := fm i hi
    exact ⟨u, by rw [hu]; simp only [normalLaw]; norm_num⟩
  · obtain ⟨u, hu⟩ := ft i hi
    exact ⟨u, by rw [hu]; rfl⟩
  · obtain ⟨u, hu⟩ := fra i hi
    exact ⟨u, by rw [hu]; simp only [uniformLaw]; norm_num⟩
  · obtain ⟨u, hu⟩ := fdec i hi
    exact ⟨u, by rw [hu]; simp only [uniformLaw]; norm_num⟩
  · obtain ⟨u, hu⟩ := gra i hi
    exact ⟨u, by rw [hu]; simp only [normalLaw]; norm_num⟩
  · obtain ⟨u, hu⟩ := gdec i hi
    exact ⟨u, by rw [hu]; simp only [normalLaw]; norm_num⟩

/-- C118. The relation between apparent and absolute brightness: for every sample, the peak magnitude of the supernova is its distance modulus plus its absolute magnitude, corrected for stretch
and colour. -/
theorem C118_magnitude {H : Heap ℝ (Gens ρ)} (hH : construct G L tmin tmax = .ok H) {w : Gens ρ} (h : Heap.sampleParameters H 13 [] none n w = .ok (H', r)) :
    ∃ x1 c mAbs z x0 : Nat → ℝ, Column r.gs n "source" "x1" x1 ∧ Column r.gs n "source" "c" c ∧ Column r.gs n "x0_func" "m_abs" mAbs ∧
      Column r.gs n "host" "redshift" z ∧ Column r.gs n "source" "x0" x0 ∧
      ∀ i, i < n → 0 < x0 i ∧ -2.5 * Real.logb 10 (x0 i) + 10.635 = mAbs i + (5 * Real.logb 10 |L.lumDist (z i)| + 25) - 0.14 * x1 i + 3.1 * c i := by
  obtain ⟨z, mass, x1, c, mAbs, mu, t0, ra, dec, hra, hdec, x0, ⟨a1, _, _, _, a5, _, a7, a8, _, _, _, _, _, _, a15⟩, hi⟩ := C118_consistent hH h
  refine ⟨x1, c, mAbs, z, x0, a5, a7, a8, a1, a15, ?_⟩
  intro i hn
  obtain ⟨e1, e2, _⟩ := hi i hn
  rw [e2]
  refine ⟨Real.rpow_pos_of_pos (by norm_num) _, ?_⟩
  rw [Real.logb_rpow (by norm_num) (by norm_num), e1]
  ring

/-- C118. With draws in the unit interval and from 0 to 1, the host is within half a degree of the field centre, its mass between 10^7 and 10^12 solar masses and the peak within the survey. -/
theorem C118_ranges (hu : ∀ u, 0 ≤ L.unit u ∧ L.unit u ≤ 1) (ht : tmin ≤ tmax) {H : Heap ℝ (Gens ρ)} (hH : construct G L tmin tmax = .ok H) {w : Gens ρ}
    (h : Heap.sampleParameters H 13 [] none n w = .ok (H', r)) :
    ∃ mass t0 hra hdec : Nat → ℝ, Column r.gs n "host" "hostmass" mass ∧ Column r.gs n "source" "t0" t0 ∧ Column r.gs n "host" "ra" hra ∧ Column r.gs n "host" "dec" hdec ∧
      ∀ i, i < n → 7 ≤ mass i ∧ mass i ≤ 12 ∧ tmin ≤ t0 i ∧ t0 i ≤ tmax ∧ |hra i| ≤ 0.5 ∧ |hdec i| ≤ 0.5 := by
  obtain ⟨z, mass, x1, c, mAbs, mu, t0, ra, dec, hra, hdec, x0, ⟨_, _, a3, _, _, _, _, _, _, a10, _, _, a13, a14, _⟩, hi⟩ := C118_consistent hH h
  refine ⟨mass, t0, hra, hdec, a3, a10, a13, a14, ?_⟩
  intro i hn
  obtain ⟨_, _, _, ⟨u1, e1⟩, _, _, _, ⟨u2, e2⟩, ⟨u3, e3⟩, ⟨u4, e4⟩, _⟩ := hi i hn
  have b1 := hu u1
  have b2 := hu u2
  have b3 := hu u3
  have b4 := hu u4
  refine ⟨by linarith, by linarith, ?_, ?_, ?_, ?_⟩
  · rw [e2]; nlinarith
  · rw [e2]; nlinarith
  · rw [e3, abs_le]; constructor <;> linarith
  · rw [e4, abs_le]; constructor <;> linarith

/-! ## Sampling succeeds -/

theorem lacks_iff (c : Char) (l : Name) : lacks c l = true ↔ c ∉ l := by
  unfold lacks
  rw [List.all_eq_true]
  constructor
  · intro h hc
    have := h c hc
    simp at this
  · intro h x hx
    simp only [bne_iff_ne, ne_eq]
    rintro rfl
    exact h hx

theorem decimal_noDot (k : Nat) : '.' ∉ decimal k := by
  induction k using Nat.strong_induction_on with
  | _ k ih =>
    have dig : ∀ d : Nat, d < 10 → '.' ≠ Char.ofNat (48 + d) := by decide
    unfold decimal
    split
    · rename_i hk
      simpa using dig k hk
    · rename_i hk
      rw [List.mem_append, List.mem_singleton]
      rintro (h | h)
      · exact ih _ (by omega) h
      · exact dig _ (Nat.mod_lt _ (by decide)) h

theorem bodies_total (G : RStream ρ U) (L : Laws U) (tmin tmax : ℝ) (k : Nat) (c : Core ρ) (hc : (cores G L tmin tmax)[k]? = some c) (hne : c.outputs ≠ []) :
    c.outputs = [resultName] ∧ ∃ b, c.body = some b ∧ ∀ w n args, ∃ w2 f, b w n args = (w2, .ok (pack n f)) := by
  have np : ∀ (dist : List (Name × ℝ) → U → ℝ) (k : Nat) (names : List Name) (w : Gens ρ) (n : Nat) (args : Dict Name (Val ℝ)),
      ∃ w2 f, npBody G dist k names w n args = (w2, .ok (pack n f)) := by
    intro dist k names w n args
    obtain ⟨w2, f, _, h, _⟩ := np_total (G := G) dist k names w n args
    exact ⟨w2, f, h⟩
  match k, hc with
  | 0, hc => cases hc; exact ⟨rfl, _, rfl, np _ _ _⟩
  | 1, hc => cases hc; exact ⟨rfl, _, rfl, np _ _ _⟩
  | 2, hc => cases hc; exact ⟨rfl, _, rfl, np _ _ _⟩
  | 3, hc => cases hc; exact ⟨rfl, _, rfl, fun w n args => ⟨_, _, rfl⟩⟩
  | 4, hc => cases hc; exact absurd rfl hne
  | 5, hc => cases hc; exact ⟨rfl, _, rfl, fun w n args => ⟨_, _, rfl⟩⟩
  | 6, hc =>
    cases hc
    refine ⟨rfl, _, rfl, fun w n args => ?_⟩
    obtain ⟨w2, f, h, _⟩ := stretch_total (G := G) (L := L) 6 w n args
    exact ⟨w2, f, h⟩
  | 7, hc => cases hc; exact ⟨rfl, _, rfl, np _ _ _⟩
  | 8, hc => cases hc; exact ⟨rfl, _, rfl, np _ _ _⟩
  | 9, hc => cases hc; exact ⟨rfl, _, rfl, fun w n args => ⟨_, _, rfl⟩⟩
  | 10, hc => cases hc; exact ⟨rfl, _, rfl, np _ _ _⟩
  | 11, hc => cases hc; exact ⟨rfl, _, rfl, np _ _ _⟩
  | 12, hc => cases hc; exact ⟨rfl, _, rfl, np _ _ _⟩
  | 13, hc => cases hc; exact absurd rfl hne
  | k + 14, hc => cases hc

theorem strings {H1 : Heap ℝ (Gens ρ)} (h1 : Heap.setPositions (graph G L tmin tmax) [13] = .ok H1) (hc : H1.map core = cores G L tmin tmax) :
    ∀ (k : Nat) nd, H1[k]? = some nd → '.' ∉ nd.str ∧ (nd.label = none → ':' ∈ nd.str) ∧ (∀ l, nd.label = some l → nd.str = l ∧ ':' ∉ l) := by
  have hlen : (graph G L tmin tmax).length = 14 := by
    have := congrArg List.length (graph_cores G L tmin tmax)
    simpa [cores] using this
  obtain ⟨H', K, e1, e2, _, e4, _⟩ := NodeProps.C11_positions (graphOK G L tmin tmax) 13 [] (by intro x hx; simp at hx; subst hx; rw [hlen]; decide)
  rw [h1] at e1
  cases e1
  intro k nd hk
  have hk14 : k < 14 := by
    have := (List.getElem?_eq_some_iff.1 hk).1
    rw [e2, hlen] at this
    exact this
  obtain ⟨nd0, e0⟩ : ∃ nd0, (graph G L tmin tmax)[k]? = some nd0 := ⟨_, List.getElem?_eq_getElem (by rw [hlen]; exact hk14)⟩
  obtain ⟨j, _, e⟩ := e4 k nd0 (reach_all G L tmin tmax (graph_cores G L tmin tmax) k hk14) e0
  rw [hk] at e
  cases e
  have hok := List.all_eq_true.1 (names_ok G L tmin tmax) nd0 (List.mem_of_getElem? e0)
  unfold nameOK at hok
  cases hl : nd0.label with
  | some l =>
    rw [hl] at hok
    simp only [Bool.and_eq_true, lacks_iff] at hok
    simp only [hl]
    refine ⟨hok.1, fun h => (by cases h), ?_⟩
    intro l' h'
    cases h'
    exact ⟨rfl, hok.2⟩
  | none =>
    rw [hl] at hok
    cases hf : nd0.funcName with
    | none => rw [hf] at hok; simp at hok
    | some fname =>
      rw [hf] at hok
      simp only [Bool.and_eq_true, lacks_iff] at hok
      simp only [PNode.autoName, hok.1.1, if_true, hf]
      refine ⟨?_, ?_, by intro l' h'; cases h'⟩
      · simp only [List.mem_append, List.mem_cons, not_or]
        exact ⟨⟨hok.1.2, by decide, hok.2⟩, by decide, decimal_noDot j⟩
      · intro _
        simp

/-- C118. Sampling the example's supernova succeeds for every number of samples and every state of the generators. -/
theorem C118_succeeds (G : RStream ρ U) (L : Laws U) (tmin tmax : ℝ) (n : Nat) (hn : 0 < n) (w : Gens ρ) :
    ∃ H H' r, construct G L tmin tmax = .ok H ∧ Heap.sampleParameters H 13 [] none n w = .ok (H', r) := by
  obtain ⟨H1, e1, e2, e3, e4⟩ := positions G L tmin tmax
  have hstr := strings e1 e3
  have hlen : H1.length = 14 := by
    have := congrArg List.length e3
    simpa [cores] using this
  have hcore : ∀ (a : Nat) na, H1[a]? = some na → (cores G L tmin tmax)[a]? = some (core na) ∧ coreOK (cores G L tmin tmax) a (core na) = true := by
    intro a na ha
    have h1 : (cores G L tmin tmax)[a]? = some (core na) := by
      rw [← e3, List.getElem?_map, ha]; rfl
    refine ⟨h1, ?_⟩
    have := List.all_eq_true.1 (cores_ok G L tmin tmax) (core na, a) (by
      rw [List.mem_zipIdx_iff_getElem?]; exact h1)
    exact this
  have hset : ∀ (a : Nat) na, H1[a]? = some na → ∀ q ∈ na.setters, '.' ∉ q.1 ∧ q.2.src ≠ .undefined ∧ ∀ d x, (q.2.src = .modelParam d x ∨ q.2.src = .funcNode d x) →
      d < a ∧ ∃ dn, H1[d]? = some dn ∧ x ∈ dn.setters.keys := by
    intro a na ha q hq
    have h1 := (hcore a na ha).2
    unfold coreOK at h1
    rw [Bool.and_eq_true] at h1
    have h2 := List.all_eq_true.1 h1.1 q hq
    rw [Bool.and_eq_true, lacks_iff] at h2
    refine ⟨h2.1, ?_, ?_⟩
    · intro h; rw [h] at h2; cases h2.2
    · intro d x hd
      have h3 : (decide (d < a) && (match (cores G L tmin tmax)[d]? with | some dc => (dc.setters.map (·.1)).contains x | none => false)) = true := by
        rcases hd with hd | hd <;> (rw [hd] at h2; exact h2.2)
      rw [Bool.and_eq_true, decide_eq_true_eq] at h3
      refine ⟨h3.1, ?_⟩
      cases hdc : (cores G L tmin tmax)[d]? with
      | none => rw [hdc] at h3; exact absurd h3.2 (by simp)
      | some dc =>
        rw [hdc] at h3
        obtain ⟨dn, f1, rfl⟩ := core_at e3 hdc
        exact ⟨dn, f1, by simpa [Dict.keys, core] using h3.2⟩
  have hR : Runnable H1 [13] n := by
    refine ⟨⟨id, ?_⟩, ?_, ?_, ?_, ?_, ?_, ?_, ?_⟩
    · rintro a b _ ⟨nd, p, st, h1, h2, h3⟩
      refine ((hset a nd h1 _ h2).2.2 b (match st.src with | .modelParam _ q => q | .funcNode _ q => q | _ => []) ?_).1
      rcases h3 with ⟨q, h3⟩ | ⟨q, h3⟩ <;> simp only [h3]
      · exact Or.inl trivial
      · exact Or.inr trivial
    · intro a ha
      simp only [List.mem_singleton] at ha
      subst ha
      rw [hlen]
      decide
    · intro a b na nb ha hb h1 h2 h
      by_contra hab
      have sa := hstr a na h1
      have sb := hstr b nb h2
      cases la : na.label with
      | none =>
        cases lb : nb.label with
        | none =>
          have ra : ∀ x nx, H1[x]? = some nx → Reach (graph G L tmin tmax) [13] x := by
            intro x nx hx
            exact reach_all G L tmin tmax (graph_cores G L tmin tmax) x (by have := (List.getElem?_eq_some_iff.1 hx).1; omega)
          refine NodeProps.C15_unlabelled_names_distinct (graphOK G L tmin tmax) 13 [] ?_ e1 a b na nb (ra a na h1) (ra b nb h2) h1 h2 la lb hab h
          intro x hx
          simp only [List.mem_singleton] at hx
          subst hx
          have := congrArg List.length (graph_cores G L tmin tmax)
          simp [cores] at this
          rw [this]; decide
        | some l =>
          have := sa.2.1 la
          rw [h, (sb.2.2 l lb).1] at this
          exact (sb.2.2 l lb).2 this
      | some l =>
        cases lb : nb.label with
        | none =>
          have := sb.2.1 lb
          rw [← h, (sa.2.2 l la).1] at this
          exact (sa.2.2 l la).2 this
        | some l' =>
          rw [(sa.2.2 l la).1, (sb.2.2 l' lb).1] at h
          subst h
          have ga : ((cores G L tmin tmax).map (·.label))[a]? = some (some l) := by
            rw [List.getElem?_map, (hcore a na h1).1]; exact congrArg some la
          have gb : ((cores G L tmin tmax).map (·.label))[b]? = some (some l) := by
            rw [List.getElem?_map, (hcore b nb h2).1]; exact congrArg some lb
          rw [labels_ok] at ga gb
          have key : ∀ (x y : Fin 14), [none, none, none, none, some (s "host"), none, none, none, none, some (s "x0_func"), none, none, none, some (s "source")][x]? =
              [none, none, none, none, some (s "host"), none, none, none, none, some (s "x0_func"), none, none, none, some (s "source")][y]? →
              [none, none, none, none, some (s "host"), none, none, none, none, some (s "x0_func"), none, none, none, some (s "source")][x]? ≠ some none → x = y := by
            decide
          have la' : a < 14 := hlen ▸ (List.getElem?_eq_some_iff.1 h1).1
          have lb' : b < 14 := hlen ▸ (List.getElem?_eq_some_iff.1 h2).1
          have := key ⟨a, la'⟩ ⟨b, lb'⟩ (by exact ga.trans gb.symm) (by
            intro hx
            have hx' := ga.symm.trans hx
            cases hx')
          exact hab (congrArg Fin.val this)
    · intro a na _ h1
      refine ⟨(hstr a na h1).1, ?_⟩
      intro p hp
      obtain ⟨q, hq, rfl⟩ := List.mem_map.1 hp
      exact (hset a na h1 q hq).1
    · intro a na _ h1 q hq
      exact (hset a na h1 q hq).2.1
    · intro a na _ h1 q hq d x hd
      exact ((hset a na h1 q hq).2.2 d x hd).2
    · intro a na _ h1 x hx
      have h2 := (hcore a na h1).2
      unfold coreOK at h2
      rw [Bool.and_eq_true] at h2
      have h3 := List.all_eq_true.1 h2.2 x hx
      simpa [Dict.keys, core] using h3
    · intro a na _ h1 hne
      obtain ⟨ho, b, hb, ht⟩ := bodies_total G L tmin tmax a (core na) (hcore a na h1).1 hne
      refine ⟨b, hb, ?_⟩
      intro w args _
      obtain ⟨w2, f, hf⟩ := ht w n args
      refine ⟨w2, _, hf, ?_⟩
      have ho' : na.outputs = [resultName] := ho
      intro p hp
      rw [ho', List.mem_singleton] at hp
      subst hp
      exact ⟨_, _, Or.inl ⟨ho', rfl⟩, pack_stored n f⟩
  obtain ⟨r, hr⟩ := NodeProps.C14_succeeds e2 hR (given := none) trivial w
    (s0 := { numSamples := n, numParams := 0, states := [], fixed := [] })
    (by unfold GState.init; rw [if_neg (by omega)]; rfl) rfl
  refine ⟨_, H1, r, construct_eq G L tmin tmax, ?_⟩
  have hp := root_pos G L tmin tmax
  unfold Heap.sampleParameters
  cases h13 : (graph G L tmin tmax)[13]? with
  | none => rw [h13] at hp; cases hp
  | some nd =>
    rw [h13] at hp
    simp only [Option.map_some, Option.some.injEq] at hp
    simp only [hp, if_true, e1, bind, Except.bind, pure, Except.pure, List.nil_append, hr]

end LCL.SniaSourceProps
