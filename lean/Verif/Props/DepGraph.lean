import Verif.Lemmas.DepGraph
import Verif.Props.NodeExamples

/-!
# Property C16: dependency graphs
-/

namespace LCL.DepProps
open LCL LCL.NodeSpec LCL.NodeLemmas LCL.DepLemmas
variable {α σ : Type}
variable {txt : Val α → Name} {H : Heap α σ} {root : NodeId} {rank : NodeId → Nat}

theorem outputs_gi (hD : Drawable txt H root rank) {id : NodeId} {nd : PNode α σ} (hr : Reach H [root] id)
    (hid : H[id]? = some nd) : ∀ (l : List (Name × Setter α)) (g : DepGraph), GI txt H root g →
    (∀ q ∈ l, q ∈ nd.setters) → (l.map (·.1)).Nodup →
    (∀ q ∈ nd.setters, fullName nd.str q.1 ∈ g.params) →
    ∃ g', l.foldlM (fun g q => match q.2.src with
        | .computeOut _ => Heap.depArgs nd q.1 g
        | _ => .ok g) g = .ok g' ∧
      GI txt H root g' ∧ g'.params = g.params ∧ g'.nodes = g.nodes ∧
      (∀ q ∈ l, ∀ o, q.2.src = .computeOut o →
        inc g' (fullName nd.str q.1) = inc g (fullName nd.str q.1) ++ nd.argNames.map (fullName nd.str)) ∧
      (∀ y, (∀ q ∈ l, ∀ o, q.2.src = .computeOut o → y ≠ fullName nd.str q.1) → inc g' y = inc g y) := by
  obtain ⟨hdot1, hdot2⟩ := hD.dots id nd hr hid
  intro l
  induction l with
  | nil => intro g h _ _ _; exact ⟨g, rfl, h, rfl, rfl, by simp, fun _ _ => rfl⟩
  | cons q l ih =>
    intro g h hl hnd hp
    simp only [List.map_cons, List.nodup_cons] at hnd
    have hq := hl q (by simp)
    have hkey : ∀ x ∈ nd.setters, '.' ∉ x.1 := fun x hx => hdot2 x.1 (List.mem_map.2 ⟨x, hx, rfl⟩)
    have hne : ∀ x ∈ l, fullName nd.str x.1 ≠ fullName nd.str q.1 := by
      intro x hx e
      have := (fullName_inj hdot1 (hkey x (hl x (List.mem_cons_of_mem _ hx))) hdot1 (hkey q hq) e).2
      exact hnd.1 (this ▸ List.mem_map.2 ⟨x, hx, rfl⟩)
    rw [List.foldlM_cons]
    by_cases hc : ∃ o, q.2.src = .computeOut o
    · obtain ⟨o, ho⟩ := hc
      obtain ⟨g1, e1, e2, e3, e4, e5⟩ := args_gi hD hr hid q.1 nd.argNames g h (by
        intro a ha
        obtain ⟨x, hx, rfl⟩ := List.mem_map.1 (hD.args id nd hr hid a ha)
        exact hp x hx) (hp q hq)
      obtain ⟨g', f1, f2, f3, f4, f5, f6⟩ := ih g1 e2 (fun x hx => hl x (List.mem_cons_of_mem _ hx)) hnd.2
        (fun x hx => by rw [e3]; exact hp x hx)
      refine ⟨g', ?_, f2, f3.trans e3, f4.trans e4, ?_, ?_⟩
      · simp only [ho]
        show (Heap.depArgs nd q.1 g >>= _) = _
        have : Heap.depArgs nd q.1 g = .ok g1 := e1
        rw [this]; exact f1
      · intro x hx o' ho'
        rcases List.mem_cons.1 hx with rfl | hx
        · rw [f6 _ (fun y hy _ _ e => hne y hy e.symm), e5, if_pos rfl]
        · rw [f5 x hx o' ho', e5, if_neg (fun e => hne x hx e.symm)]
      · intro y hy
        rw [f6 y (fun x hx => hy x (List.mem_cons_of_mem _ hx)), e5, if_neg (fun e => hy q (by simp) o ho e.symm)]
    · have hstep : (match q.2.src with
        | .computeOut _ => Heap.depArgs nd q.1 g
        | _ => .ok g) = (.ok g : Except Err DepGraph) := by
        cases hs : q.2.src with
        | computeOut o => exact absurd ⟨o, hs⟩ hc
        | _ => rfl
      obtain ⟨g', f1, f2, f3, f4, f5, f6⟩ := ih g h (fun x hx => hl x (List.mem_cons_of_mem _ hx)) hnd.2 hp
      refine ⟨g', ?_, f2, f3, f4, ?_, ?_⟩
      · rw [hstep]; exact f1
      · intro x hx o' ho'
        rcases List.mem_cons.1 hx with rfl | hx
        · exact absurd ⟨o', ho'⟩ hc
        · exact f5 x hx o' ho'
      · intro y hy; exact f6 y (fun x hx => hy x (List.mem_cons_of_mem _ hx))

theorem helper_spec (hD : Drawable txt H root rank) : ∀ (fuel : Nat) (id : NodeId) (g : DepGraph),
    Reach H [root] id → rank id < fuel → Needs txt H root rank id g →
    ∃ g', Heap.depHelper txt H fuel id g = .ok g' ∧ Guarantee txt H root id g g' := by
  intro fuel
  induction fuel with
  | zero => intro id g _ h; exact absurd h (Nat.not_lt_zero _)
  | succ fuel ih =>
    intro id g0 hr hf hN
    obtain ⟨nd, hid⟩ := hD.exist id hr
    obtain ⟨hdot1, hdot2⟩ := hD.dots id nd hr hid
    unfold Heap.depHelper
    simp only [hid]
    by_cases hin : nd.str ∈ g0.nodes
    · rw [if_pos hin]
      refine ⟨g0, rfl, hN.1, ⟨fun _ h => h, fun _ h => ⟨h, rfl⟩, fun x h1 h2 => absurd h1 h2⟩, ⟨nd, hid, ?_⟩,
        fun m h1 h2 => absurd h1 h2⟩
      rcases hN.2 _ hin with ⟨i, n, h1, h2, h3, h4⟩ | ⟨j, nj, h1, h2, h3, h4⟩
      · have := hD.names i id n nd h1 hr h2 hid h3
        subst this; rw [hid] at h2; cases h2; exact h4
      · have := hD.names j id nj nd h1 hr h2 hid h3
        subst this; exact absurd h4 (Nat.lt_irrefl _)
    · rw [if_neg hin]
      have hkeys := hD.keys id nd hr hid
      -- the loop
      have hloop : ∀ (rest done : List (Name × Setter α)) (u : DepGraph), done ++ rest = nd.setters →
          Loop txt H root nd g0 done u → (done ≠ [] → nd.str ∈ u.nodes) →
          ∃ u', rest.foldlM (Heap.depStep txt H (Heap.depHelper txt H fuel) id nd) u = .ok u' ∧
            Loop txt H root nd g0 nd.setters u' := by
        intro rest
        induction rest with
        | nil => intro done u e hL _; simp at e; subst e; exact ⟨u, rfl, hL⟩
        | cons q rest ihr =>
          intro done u e hL _
          have hq : q ∈ nd.setters := by rw [← e]; simp
          have hqn : q.1 ∉ done.map (·.1) := by
            intro hx
            have : (done.map (·.1) ++ q.1 :: rest.map (·.1)).Nodup := by
              rw [← e] at hkeys
              simpa [Dict.keys] using hkeys
            rw [List.nodup_append] at this
            exact this.2.2 q.1 hx q.1 (by simp) rfl
          obtain ⟨u1, h1, h2, h3⟩ := step_loop hD hr hid
            (fun d g hd hlt hn => ih d g hd (Nat.lt_of_lt_of_le hlt (Nat.le_of_lt_succ hf)) hn) hN hin hL hq hqn
          obtain ⟨u', h4, h5⟩ := ihr (done ++ [q]) u1 (by rw [← e]; simp) h2 (fun _ => h3)
          refine ⟨u', ?_, h5⟩
          rw [List.foldlM_cons, h1]; exact h4
      have h0 : Loop txt H root nd g0 [] g0 := by
        refine ⟨hN.1, fun _ h => h, fun _ h => ⟨h, rfl⟩, ?_, by simp, fun m h1 h2 => absurd h1 h2,
          fun x h1 h2 => absurd h1 h2⟩
        intro p hpd hp
        exfalso
        rcases hN.1.kind _ hp with ⟨i, n, p', h1, h2, h3, h4, e⟩ | ⟨k, v, y, _, e, _⟩
        · obtain ⟨d1, d2⟩ := hD.dots i n h1 h2
          have := (fullName_inj hdot1 hpd d1 (d2 p' h4) e).1
          exact hin (this ▸ h3)
        · exact hD.noConst id nd p k v hr hid e
      obtain ⟨u, hu, hL⟩ := hloop nd.setters [] g0 (by simp) h0 (by simp)
      simp only [bind, Except.bind, hu]
      -- computed outputs
      have hfull : ∀ q ∈ nd.setters, fullName nd.str q.1 ∈ u.params := fun q hq => (hL.preds q hq).1
      have close : ∀ g' : DepGraph, GI txt H root g' → g'.params = u.params → g'.nodes = u.nodes →
          (∀ q ∈ nd.setters, ∀ o, q.2.src = .computeOut o →
            inc g' (fullName nd.str q.1) = inc u (fullName nd.str q.1) ++ nd.argNames.map (fullName nd.str)) →
          (∀ y, (∀ q ∈ nd.setters, ∀ o, q.2.src = .computeOut o → y ≠ fullName nd.str q.1) → inc g' y = inc u y) →
          Guarantee txt H root id g0 g' := by
        intro g' c1 c2 c3 c4 c5
        have hnoown : ∀ x, (∀ q ∈ nd.setters, x ≠ fullName nd.str q.1) → inc g' x = inc u x :=
          fun x hx => c5 x (fun q hq _ _ => hx q hq)
        have hfin : Fin txt H g' nd := by
          intro p st hp
          refine ⟨by rw [c2]; exact hfull _ hp, ?_⟩
          have hpre := (hL.preds _ hp).2
          simp only at hpre
          by_cases hc : ∃ o, st.src = .computeOut o
          · obtain ⟨o, ho⟩ := hc
            rw [c4 _ hp o ho]
            rw [ho] at hpre ⊢
            have hpre : inc u (fullName nd.str p) = [] := hpre
            simp only [hpre, List.nil_append, DependsOn]
          · have : inc g' (fullName nd.str p) = inc u (fullName nd.str p) := by
              apply c5
              intro q hq o ho e
              have := (fullName_inj hdot1 (hdot2 p (List.mem_map.2 ⟨_, hp, rfl⟩)) hdot1
                (hdot2 q.1 (List.mem_map.2 ⟨_, hq, rfl⟩)) e).2
              have hg1 := (Dict.get?_iff_mem hkeys).2 hp
              have hg2 := (Dict.get?_iff_mem (v := q.2) (k := q.1) hkeys).2 hq
              rw [← this, hg1] at hg2
              cases hg2
              exact hc ⟨o, ho⟩
            rw [this]
            cases hs : st.src with
            | computeOut o => exact absurd ⟨o, hs⟩ hc
            | undefined => rw [hs] at hpre; exact hpre
            | const v => rw [hs] at hpre; exact hpre
            | modelParam d x => rw [hs] at hpre; exact hpre
            | funcNode d x => rw [hs] at hpre; exact hpre
        have hold : ∀ x ∈ g0.params, ∀ q ∈ nd.setters, x ≠ fullName nd.str q.1 := by
          intro x hx q hq e
          have := h0.own q.1 (hdot2 q.1 (List.mem_map.2 ⟨_, hq, rfl⟩)) (e ▸ hx)
          simp at this
        refine ⟨c1, ⟨?_, ?_, ?_⟩, ⟨nd, hid, hfin⟩, ?_⟩
        · intro m hm; rw [c3]; exact hL.nodes m hm
        · intro x hx
          obtain ⟨h1, h2⟩ := hL.params x hx
          exact ⟨by rw [c2]; exact h1, by rw [hnoown x (hold x hx)]; exact h2⟩
        · intro x hx h1; rw [c2] at hx; exact hL.new x hx h1
        · intro m hm h1
          rw [c3] at hm
          by_cases h2 : m = nd.str
          · exact ⟨id, nd, hr, hid, h2.symm, hfin⟩
          · obtain ⟨i, n, f1, f2, f3, f4⟩ := hL.fin m hm h1 h2
            refine ⟨i, n, f1, f2, f3, ?_⟩
            intro p st hp
            obtain ⟨k1, k2⟩ := f4 p st hp
            refine ⟨by rw [c2]; exact k1, ?_⟩
            rw [hnoown]
            · exact k2
            · intro q hq e
              obtain ⟨d1, d2⟩ := hD.dots i n f1 f2
              have := (fullName_inj d1 (d2 p (List.mem_map.2 ⟨_, hp, rfl⟩)) hdot1
                (hdot2 q.1 (List.mem_map.2 ⟨_, hq, rfl⟩)) e).1
              exact h2 (f3.symm.trans this)
      cases hfn : nd.isFunc with
      | true =>
        obtain ⟨g', e1, e2, e3, e4, e5, e6⟩ := outputs_gi hD hr hid nd.setters u hL.gi (fun _ h => h)
          (by simpa [Dict.keys] using hkeys) hfull
        exact ⟨g', e1, close g' e2 e3 e4 e5 e6⟩
      | false =>
        refine ⟨u, rfl, close u hL.gi rfl rfl ?_ (fun _ _ => rfl)⟩
        intro q hq o ho
        have := hD.funcs id nd hr hid q.1 q.2 o hq ho
        rw [hfn] at this; cases this

/-- C16. On every graph that can be drawn (no cyclic dependency, distinct dot-free names, existing
link targets), with enough recursion depth, `build_dependency_graph` succeeds, and its result is
exactly the dependency relation: every parameter of every reachable node is listed with exactly
its direct dependencies; nothing else is listed but one entry per constant parameter, which has
that parameter as its only dependent; and `incoming` and `outgoing` are the same edges, with
multiplicities. -/
theorem C16_dependency_graph (hD : Drawable txt H root rank) (depth : Nat) (hdepth : rank root < depth) :
    ∃ g, Heap.dependencyGraph txt H depth root = .ok g ∧ g.params.Nodup ∧
      (∀ id nd p st, Reach H [root] id → H[id]? = some nd → (p, st) ∈ nd.setters →
        fullName nd.str p ∈ g.params ∧ ∃ l, g.incoming.get? (fullName nd.str p) = some l ∧
          DependsOn txt H nd st.src l ∧ ∀ x ∈ l, x ∈ g.params) ∧
      (∀ x ∈ g.params,
        (∃ id nd p, Reach H [root] id ∧ H[id]? = some nd ∧ p ∈ nd.setters.keys ∧ x = fullName nd.str p) ∨
        ∃ (k : Nat) (v : Val α) (y : Name), x = constEntry txt k v ∧ g.outgoing.get? x = some [y] ∧
          g.incoming.get? x = some []) ∧
      (∀ x y lx ly, g.outgoing.get? x = some lx → g.incoming.get? y = some ly → ly.count x = lx.count y) := by
  have hempty : Needs txt H root rank root DepGraph.empty := by
    refine ⟨⟨⟨by simp [DepGraph.empty], ?_, ?_, ?_⟩, ?_, ?_⟩, ?_⟩
    · intro x; simp [DepGraph.empty]
    · intro x; simp [DepGraph.empty]
    · intro x y; simp [inc, out, DepGraph.empty]
    · intro m hm; simp [DepGraph.empty] at hm
    · intro m hm; simp [DepGraph.empty] at hm
    · intro m hm; simp [DepGraph.empty] at hm
  obtain ⟨g, h1, gi, fr, ⟨rn, hrn, hfin⟩, hnew⟩ := helper_spec hD depth root .empty (Reach.root (by simp)) hdepth hempty
  have hget : ∀ x ∈ g.params, g.incoming.get? x = some (inc g x) ∧ g.outgoing.get? x = some (out g x) := by
    intro x hx
    obtain ⟨l, hl⟩ := (gi.basic.keysI x).1 hx
    obtain ⟨l', hl'⟩ := (gi.basic.keysO x).1 hx
    simp [inc, out, hl, hl']
  have hall : ∀ id, Reach H [root] id → ∃ nd, H[id]? = some nd ∧ Fin txt H g nd := by
    intro id hr
    induction hr with
    | root h => simp at h; subst h; exact ⟨rn, hrn, hfin⟩
    | @step a b hra hreads ih =>
      obtain ⟨na, hna, hfa⟩ := ih
      obtain ⟨na', p, st, e1, e2, e3⟩ := hreads
      rw [hna] at e1; cases e1
      have hrb : Reach H [root] b := Reach.step hra ⟨na, p, st, hna, e2, e3⟩
      obtain ⟨x, hx⟩ : ∃ x, st.src = .modelParam b x ∨ st.src = .funcNode b x := by
        rcases e3 with ⟨x, hx⟩ | ⟨x, hx⟩
        · exact ⟨x, Or.inl hx⟩
        · exact ⟨x, Or.inr hx⟩
      obtain ⟨bn, hbn, hbx⟩ := hD.targets a na hra hna _ e2 b x hx
      refine ⟨bn, hbn, ?_⟩
      -- the linked parameter is listed, hence its node was entered
      have hdep := (hfa p st e2).2
      have hl : inc g (fullName na.str p) = [fullName bn.str x] := by
        rcases hx with hx | hx <;> (rw [hx] at hdep; obtain ⟨dn, h2, h3⟩ := hdep; rw [hbn] at h2; cases h2; exact h3)
      have hmem : fullName bn.str x ∈ g.params := by
        have hc := gi.basic.cnt (fullName bn.str x) (fullName na.str p)
        rw [hl] at hc
        rcases Classical.em (fullName bn.str x ∈ g.params) with h | h
        · exact h
        · rw [gi.basic.out_absent h] at hc; simp at hc
      obtain ⟨db1, db2⟩ := hD.dots b bn hrb hbn
      rcases gi.kind _ hmem with ⟨i, n, p', f1, f2, f3, f4, e⟩ | ⟨k, v, y, _, e, _⟩
      · obtain ⟨d1, d2⟩ := hD.dots i n f1 f2
        have hs := (fullName_inj db1 (db2 x hbx) d1 (d2 p' f4) e).1
        obtain ⟨j, nj, k1, k2, k3, k4⟩ := hnew n.str f3 (by simp [DepGraph.empty])
        have := hD.names j b nj bn k1 hrb k2 hbn (k3.trans hs.symm)
        subst this
        rw [hbn] at k2; cases k2
        exact k4
      · exact absurd e (hD.noConst b bn x k v hrb hbn)
  refine ⟨g, h1, gi.basic.nodup, ?_, ?_, ?_⟩
  · intro id nd p st hr hid hp
    obtain ⟨nd', h2, h3⟩ := hall id hr
    rw [hid] at h2; cases h2
    obtain ⟨h4, h5⟩ := h3 p st hp
    refine ⟨h4, _, (hget _ h4).1, h5, ?_⟩
    intro x hx
    have hc := gi.basic.cnt x (fullName nd.str p)
    rcases Classical.em (x ∈ g.params) with h | h
    · exact h
    · rw [gi.basic.out_absent h] at hc
      simp only [List.count_nil] at hc
      exact absurd hx (List.count_eq_zero.1 hc)
  · intro x hx
    rcases gi.kind x hx with ⟨i, n, p, f1, f2, f3, f4, e⟩ | ⟨k, v, y, _, e, f3, f4⟩
    · exact Or.inl ⟨i, n, p, f1, f2, f4, e⟩
    · exact Or.inr ⟨k, v, y, e, by rw [(hget x hx).2, f3], by rw [(hget x hx).1, f4]⟩
  · intro x y lx ly hx hy
    have := gi.basic.cnt x y
    simpa [inc, out, hx, hy] using this

/-- C16 (constants are not shared). Two different constant parameters never depend on the same
entry. -/
theorem C16_constants_separate (hD : Drawable txt H root rank) (depth : Nat) (hdepth : rank root < depth)
    (g : DepGraph) (hg : Heap.dependencyGraph txt H depth root = .ok g)
    (a b : NodeId) (na nb : PNode α σ) (p q : Name) (st su : Setter α) (v w : Val α)
    (ha : Reach H [root] a) (hb : Reach H [root] b) (hna : H[a]? = some na) (hnb : H[b]? = some nb)
    (hp : (p, st) ∈ na.setters) (hq : (q, su) ∈ nb.setters) (hv : st.src = .const v) (hw : su.src = .const w)
    (hne : (a, p) ≠ (b, q)) (x : Name) (la lb : List Name)
    (hla : g.incoming.get? (fullName na.str p) = some la) (hlb : g.incoming.get? (fullName nb.str q) = some lb)
    (hxa : x ∈ la) (hxb : x ∈ lb) : False := by
  obtain ⟨g', h1, _, h3, h4, h5⟩ := C16_dependency_graph hD depth hdepth
  rw [hg] at h1; cases h1
  obtain ⟨_, la', e1, e2, e3⟩ := h3 a na p st ha hna hp
  obtain ⟨_, lb', f1, f2, f3⟩ := h3 b nb q su hb hnb hq
  rw [hla] at e1; cases e1
  rw [hlb] at f1; cases f1
  rw [hv] at e2
  obtain ⟨k, hk⟩ := e2
  have hxe : x = constEntry txt k v := by rw [hk] at hxa; simpa using hxa
  rcases h4 x (e3 x hxa) with ⟨i, n, p', k1, k2, _, k3⟩ | ⟨_, _, y, _, k2, _⟩
  · exact hD.noConst i n p' k v k1 k2 (k3.symm.trans hxe)
  · have c1 := h5 x _ _ _ k2 hla
    have c2 := h5 x _ _ _ k2 hlb
    have p1 : 0 < la.count x := List.count_pos_iff.2 hxa
    have p2 : 0 < lb.count x := List.count_pos_iff.2 hxb
    have y1 : fullName na.str p = y := by
      have : 0 < [y].count (fullName na.str p) := by omega
      simpa using List.count_pos_iff.1 this
    have y2 : fullName nb.str q = y := by
      have : 0 < [y].count (fullName nb.str q) := by omega
      simpa using List.count_pos_iff.1 this
    obtain ⟨d1, d2⟩ := hD.dots a na ha hna
    obtain ⟨d3, d4⟩ := hD.dots b nb hb hnb
    obtain ⟨i1, i2⟩ := fullName_inj d1 (d2 p (List.mem_map.2 ⟨_, hp, rfl⟩)) d3 (d4 q (List.mem_map.2 ⟨_, hq, rfl⟩)) (y1.trans y2.symm)
    exact hne (by rw [hD.names a b na nb ha hb hna hnb i1, i2])

section Example
open LCL.NodeExamples

theorem small_reads : ∀ a b : NodeId, Reads small a b → a = 1 ∧ b = 0 := by
  rintro a b ⟨nd, p, st, h1, h2, h3⟩
  match a with
  | 0 =>
    cases h1
    change (p, st) ∈ [((['x'] : Name), (⟨.const (.scalar 1), true⟩ : Setter Nat)),
      (resultName, ⟨.computeOut resultName, false⟩)] at h2
    simp at h2
    rcases h2 with ⟨rfl, rfl⟩ | ⟨rfl, rfl⟩ <;> rcases h3 with ⟨q, h3⟩ | ⟨q, h3⟩ <;> cases h3
  | 1 =>
    cases h1
    change (p, st) ∈ [((['a'] : Name), (⟨.funcNode 0 resultName, false⟩ : Setter Nat))] at h2
    simp at h2
    obtain ⟨rfl, rfl⟩ := h2
    rcases h3 with ⟨q, h3⟩ | ⟨q, h3⟩ <;> cases h3
    exact ⟨rfl, rfl⟩
  | a + 2 => cases h1

theorem small_reach : ∀ a : NodeId, Reach small [1] a → a = 1 ∨ a = 0 := by
  intro a h
  cases h with
  | root h => simp at h; exact Or.inl h
  | step _ h => exact Or.inr (small_reads _ _ h).2

/-- The two-node graph of NodeExamples meets the hypotheses of C16. -/
example : Drawable (fun _ => ['v']) small 1 id := by
  refine ⟨?_, ?_, ?_, ?_, ?_, ?_, ?_, ?_, ?_⟩
  · intro a b _ h; obtain ⟨rfl, rfl⟩ := small_reads a b h; decide
  · intro a h; rcases small_reach a h with rfl | rfl
    · exact ⟨_, rfl⟩
    · exact ⟨_, rfl⟩
  · intro a b na nb ha hb h1 h2 h
    rcases small_reach a ha with rfl | rfl <;> rcases small_reach b hb with rfl | rfl <;> cases h1 <;> cases h2 <;>
      first | rfl | (exact absurd h (by decide))
  · intro a na ha h1
    rcases small_reach a ha with rfl | rfl <;> cases h1 <;> exact ⟨by decide, by decide⟩
  · intro a na p k v ha h1 e
    rcases small_reach a ha with rfl | rfl <;> cases h1
    · have : 'm' = 'c' := (List.cons.inj e).1
      exact absurd this (by decide)
    · have : 'f' = 'c' := (List.cons.inj e).1
      exact absurd this (by decide)
  · intro a na ha h1
    rcases small_reach a ha with rfl | rfl <;> cases h1 <;> decide
  · intro a na ha h1 q hq d x hs
    rcases small_reach a ha with rfl | rfl <;> cases h1
    · change q ∈ [((['a'] : Name), (⟨.funcNode 0 resultName, false⟩ : Setter Nat))] at hq
      simp at hq; subst hq; simp at hs; obtain ⟨rfl, rfl⟩ := hs
      exact ⟨_, rfl, by decide⟩
    · change q ∈ [((['x'] : Name), (⟨.const (.scalar 1), true⟩ : Setter Nat)),
        (resultName, ⟨.computeOut resultName, false⟩)] at hq
      simp at hq
      rcases hq with rfl | rfl <;> simp at hs
  · intro a na ha h1 x hx
    rcases small_reach a ha with rfl | rfl <;> cases h1
    · change x ∈ ([] : List Name) at hx; cases hx
    · change x ∈ ([['x']] : List Name) at hx
      simp at hx; subst hx; decide
  · intro a na ha h1 p st o hp ho
    rcases small_reach a ha with rfl | rfl <;> cases h1
    · change (p, st) ∈ [((['a'] : Name), (⟨.funcNode 0 resultName, false⟩ : Setter Nat))] at hp
      simp at hp; obtain ⟨rfl, rfl⟩ := hp; cases ho
    · rfl

end Example

end LCL.DepProps
