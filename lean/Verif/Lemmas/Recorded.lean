import Verif.Props.Direct

/-!
# Lemmas for C141: what is written survives sampling, and dictionaries rebuild a state exactly
-/

namespace LCL.RecordedLemmas
open LCL LCL.GraphLemmas LCL.GraphSpec LCL.FullRun LCL.FullRunProps
variable {α σ : Type}

/-! ### Properties of the state that every write keeps -/

variable (P : GState α → Prop) (hset : ∀ s n p v s', s.set n p v false = (s', none) → P s → P s')
include hset

theorem write_keeps {r r' : Heap.Run α σ} {n p : Name} {v : Val α} (h : Heap.write r n p v = .ok r') (hP : P r.gs) : P r'.gs := by
  unfold Heap.write at h
  split at h
  · rename_i s e
    cases h
    exact hset _ _ _ _ _ e hP
  · cases h

theorem saveAll_keeps (nd : PNode α σ) : ∀ (l : List (Name × Val α)) {r r' : Heap.Run α σ}, Heap.saveAll nd r l = .ok r' → P r.gs → P r'.gs
  | [], r, r', h, hP => by unfold Heap.saveAll at h; cases h; exact hP
  | (k, v) :: rest, r, r', h, hP => by
    unfold Heap.saveAll at h
    simp only [bind, Except.bind] at h
    cases h1 : Heap.write r nd.str k v with
    | error e => rw [h1] at h; cases h
    | ok r1 => rw [h1] at h; exact saveAll_keeps nd rest h (write_keeps P hset h1 hP)

theorem saveResults_keeps {nd : PNode α σ} {r r' : Heap.Run α σ} {v : Val α} (h : Heap.saveResults nd r v = .ok r') (hP : P r.gs) : P r'.gs := by
  unfold Heap.saveResults at h
  split at h
  · exact write_keeps P hset h hP
  · split at h
    · split at h
      · cases h
      · exact saveAll_keeps P hset nd _ h hP
    · cases h

theorem compute_keeps {id : NodeId} {nd : PNode α σ} {r r' : Heap.Run α σ} {kw : Dict Name (Val α)} (h : Heap.compute id nd r kw = .ok r') (hP : P r.gs) : P r'.gs := by
  unfold Heap.compute at h
  split at h
  · split at h
    · cases h
    · simp only [bind, Except.bind] at h
      split at h
      · cases h
      · split at h
        · cases h
        · refine saveResults_keeps P hset h ?_
          exact hP
  · cases h; exact hP

theorem foldlM_keeps {β γ : Type} (Q : β → Prop) (f : β → γ → Except Err β) (hf : ∀ b c b', f b c = .ok b' → Q b → Q b') :
    ∀ (l : List γ) {b b' : β}, l.foldlM f b = .ok b' → Q b → Q b'
  | [], b, b', h, hQ => by simp only [List.foldlM, pure, Except.pure] at h; cases h; exact hQ
  | c :: l, b, b', h, hQ => by
    simp only [List.foldlM, bind, Except.bind] at h
    cases h1 : f b c with
    | error e => rw [h1] at h; cases h
    | ok b1 => rw [h1] at h; exact foldlM_keeps Q f hf l h (hf _ _ _ h1 hQ)

theorem visitDep_keeps {rec : NodeId → Heap.Run α σ → Except Err (Heap.Run α σ)} (hrec : ∀ d r r', rec d r = .ok r' → P r.gs → P r'.gs) {id : NodeId} {src : Src α}
    {r r' : Heap.Run α σ} (h : Heap.visitDep rec id src r = .ok r') (hP : P r.gs) : P r'.gs := by
  unfold Heap.visitDep at h
  split at h
  · split at h
    · exact hrec _ _ _ h hP
    · cases h; exact hP
  · cases h; exact hP

theorem stepSetter_keeps {H : Heap α σ} {rec : NodeId → Heap.Run α σ → Except Err (Heap.Run α σ)} (hrec : ∀ d r r', rec d r = .ok r' → P r.gs → P r'.gs) {id : NodeId}
    {nd : PNode α σ} {acc acc' : Heap.Run α σ × Bool} {q : Name × Setter α} (h : Heap.stepSetter H rec id nd acc q = .ok acc') (hP : P acc.1.gs) : P acc'.1.gs := by
  unfold Heap.stepSetter at h
  simp only [bind, Except.bind] at h
  cases h1 : Heap.visitDep rec id q.2.src acc.1 with
  | error e => rw [h1] at h; cases h
  | ok r =>
    rw [h1] at h
    have hr := visitDep_keeps P hset hrec h1 hP
    dsimp only at h
    split at h
    · split at h
      · cases h
      · rename_i a h2
        cases h
        exact write_keeps P hset h2 hr
    · split at h
      · cases h
      · split at h
        · cases h
        · split at h
          · cases h
          · rename_i a h2
            cases h
            exact write_keeps P hset h2 hr
    · split at h
      · cases h
      · split at h
        · cases h
        · split at h
          · cases h
          · rename_i a h2
            cases h
            exact write_keeps P hset h2 hr
    · cases h; exact hr
    · cases h

theorem sampleNode_keeps (H : Heap α σ) : ∀ (fuel : Nat) (id : NodeId) (r r' : Heap.Run α σ), Heap.sampleNode H fuel id r = .ok r' → P r.gs → P r'.gs
  | 0, id, r, r', h, hP => by unfold Heap.sampleNode at h; cases h
  | fuel + 1, id, r, r', h, hP => by
    unfold Heap.sampleNode at h
    split at h
    · cases h
    · split at h
      · split at h
        · cases h
        · cases h; exact hP
      · simp only [bind, Except.bind] at h
        split at h
        · cases h
        · rename_i v hv
          have hv' := foldlM_keeps P hset (fun a : Heap.Run α σ × Bool => P a.1.gs) _
            (fun b c b' hb hQ => stepSetter_keeps P hset (sampleNode_keeps H fuel) hb hQ) _ hv hP
          split at h
          · exact compute_keeps P hset h hv'
          · cases h; exact hv'

theorem sampleFrom_keeps {H : Heap α σ} {roots : List NodeId} {n : Int} {w : σ} {r : Heap.Run α σ} (hinit : ∀ s, GState.init n = .ok s → P s)
    (h : Heap.sampleFrom H roots none n w = .ok r) : P r.gs := by
  unfold Heap.sampleFrom at h
  simp only [bind, Except.bind] at h
  cases h0 : (GState.init n : Except Err (GState α)) with
  | error e => rw [h0] at h; cases h
  | ok s0 =>
    rw [h0] at h
    exact foldlM_keeps P hset (fun r : Heap.Run α σ => P r.gs) _ (fun b c b' hb hQ => sampleNode_keeps P hset H _ _ _ _ hb hQ) _ h (hinit s0 h0)

omit hset

/-! ### What sampling leaves -/

theorem reachable_set {s s' : GState α} {n p : Name} {v : Val α} (h : s.set n p v false = (s', none)) (hs : Reachable s) : Reachable s' := by
  obtain ⟨k, s0, ops, h0, rfl⟩ := hs
  refine ⟨k, s0, ops ++ [.set n p v false], h0, ?_⟩
  have : run s0 (ops ++ [.set n p v false]) = ((run s0 ops).set n p v false).1 := by
    unfold run
    rw [List.foldl_append]
    rfl
  rw [this, h]

/-- No node is recorded without parameters and nothing is fixed. -/
structure Filled (s : GState α) : Prop where
  reach : Reachable s
  full : ∀ n d, s.states.get? n = some d → d ≠ []
  free : ∀ n fx, s.fixed.get? n = some fx → fx = []

/-- A successful write in a state without fixed parameters. -/
theorem set_states {s s' : GState α} {n p : Name} {v : Val α} (hf : ∀ n fx, s.fixed.get? n = some fx → fx = []) (h : s.set n p v false = (s', none)) :
    ∃ v', GState.normalise s.numSamples v = .ok v' ∧ s'.states = Dict.set s.states n (Dict.set ((s.states.get? n).getD []) p v') ∧
      s'.numSamples = s.numSamples ∧ ∀ n fx, s'.fixed.get? n = some fx → fx = [] := by
  unfold GState.set at h
  split at h
  · cases h
  · dsimp only at h
    have hc : ∀ t : GState α, (t.countVar n p).states = t.states ∧ (t.countVar n p).fixed = t.fixed ∧ (t.countVar n p).numSamples = t.numSamples := by
      intro t; unfold GState.countVar; split <;> exact ⟨rfl, rfl, rfl⟩
    rw [(hc _).2.1, (hc _).2.2, (hc _).1] at h
    have hr : (s.register n).numSamples = s.numSamples ∧ ((s.register n).states.get? n).getD [] = (s.states.get? n).getD [] ∧
        (∀ X, Dict.set (s.register n).states n X = Dict.set s.states n X) ∧ ∀ m fx, (s.register n).fixed.get? m = some fx → fx = [] := by
      unfold GState.register
      by_cases hh : s.states.has n = true
      · rw [if_pos hh]; exact ⟨rfl, rfl, fun _ => rfl, hf⟩
      · rw [if_neg hh]
        have hnone : s.states.get? n = none := by
          cases hx : s.states.get? n with
          | none => rfl
          | some x => exact absurd (by simp [Dict.has, hx]) hh
        refine ⟨rfl, by rw [Dict.get?_set_self, hnone]; rfl, ?_, ?_⟩
        · intro X
          have : n ∉ Dict.keys s.states := (Dict.get?_eq_none_iff _ _).1 hnone
          dsimp only
          rw [set_append _ _ _ this, set_append _ _ _ this]
          clear hh hnone hf h
          revert this
          generalize s.states = d0
          induction d0 with
          | nil => intro _; simp [Dict.set]
          | cons q d ih =>
            intro this
            obtain ⟨a, b⟩ := q
            have ha : a ≠ n := by rintro rfl; simp at this
            simp only [List.cons_append, Dict.set, if_neg ha, List.cons.injEq, true_and]
            exact ih (by simp at this; exact this.2)
        · intro m fx hm
          by_cases e : n = m
          · subst e; rw [Dict.get?_set_self] at hm; cases hm; rfl
          · rw [Dict.get?_set_ne _ _ e] at hm; exact hf m fx hm
    obtain ⟨r1, r2, r3, r4⟩ := hr
    split at h
    · cases h
    · rename_i fx hfx
      have := r4 _ _ hfx
      subst this
      rw [if_neg (by simp), r1, r2] at h
      cases hn : GState.normalise s.numSamples v with
      | error e => rw [hn] at h; cases h
      | ok v' =>
        rw [hn] at h
        simp only [Bool.false_eq_true, if_false, Prod.mk.injEq, and_true] at h
        subst h
        refine ⟨v', rfl, ?_, ?_, ?_⟩
        · exact r3 _
        · rfl
        · intro m fx hm
          exact r4 m fx hm

theorem set_ne_nil {κ ν : Type} [DecidableEq κ] (d : Dict κ ν) (k : κ) (v : ν) : Dict.set d k v ≠ [] := by
  cases d with
  | nil => simp [Dict.set]
  | cons q d => obtain ⟨a, b⟩ := q; simp only [Dict.set]; split <;> simp

theorem filled_set (s : GState α) (n p : Name) (v : Val α) (s' : GState α) (h : s.set n p v false = (s', none)) (hs : Filled s) : Filled s' := by
  obtain ⟨v', _, h2, _, h4⟩ := set_states hs.free h
  refine ⟨reachable_set h hs.reach, ?_, h4⟩
  intro m d hm
  rw [h2] at hm
  by_cases e : n = m
  · subst e; rw [Dict.get?_set_self] at hm; cases hm; exact set_ne_nil _ _ _
  · rw [Dict.get?_set_ne _ _ e] at hm; exact hs.full m d hm

theorem filled_init {n : Int} {s : GState α} (h : GState.init n = .ok s) : Filled s := by
  refine ⟨⟨n, s, [], h, rfl⟩, ?_, ?_⟩
  all_goals
    unfold GState.init at h
    split at h
    · cases h
    · cases h; intro m d hm; cases hm

theorem sampled_filled {H H' : Heap ℝ σ} {root : NodeId} {objs : List NodeId} {n : Int} {w : σ} {r : Heap.Run ℝ σ} (hG : NodeSpec.GraphOK H)
    (h : Heap.sampleParameters H root objs none n w = .ok (H', r)) : Filled r.gs :=
  sampleFrom_keeps Filled filled_set (fun _ => filled_init) (sampleFrom_of hG h).2.1

/-! ### A dictionary rebuilds the state -/

/-- One write, on dictionaries. -/
def put (st : Dict Name (Dict Name (Val α))) (t : Tri α) : Dict Name (Dict Name (Val α)) := Dict.set st t.1 (Dict.set ((st.get? t.1).getD []) t.2.1 t.2.2)

theorem fromDictLoop_puts : ∀ (l : List (Tri α)) (s : GState α), Writable s l → (∀ t ∈ l, GState.normalise s.numSamples t.2.2 = .ok t.2.2) →
    (∀ n fx, s.fixed.get? n = some fx → fx = []) →
    ∃ s', GState.fromDictLoop s ((keyed l).map fun q => (q.1, GState.Entry.val q.2)) = .ok s' ∧ s'.states = l.foldl put s.states ∧ s'.numSamples = s.numSamples
  | [], s, _, _, _ => ⟨s, rfl, rfl, rfl⟩
  | t :: l, s, hw, hn, hf => by
    have hd := hw.dots t (by simp)
    obtain ⟨h1, h2, h3, _⟩ := set_one s t l hw
    have hpair : s.set t.1 t.2.1 t.2.2 false = ((s.set t.1 t.2.1 t.2.2 false).1, none) := by rw [← h1]
    obtain ⟨v', e1, e2, e3, e4⟩ := set_states hf hpair
    rw [hn t (by simp)] at e1
    cases e1
    obtain ⟨s', g1, g2, g3⟩ := fromDictLoop_puts l _ h2 (fun u hu => by rw [e3]; exact hn u (List.mem_cons_of_mem _ hu)) e4
    refine ⟨s', ?_, by rw [g2, e2]; rfl, g3.trans e3⟩
    have hk : keyed (t :: l) = (GState.extendedName t.1 t.2.1, t.2.2) :: keyed l := rfl
    rw [hk, List.map_cons]
    unfold GState.fromDictLoop
    have hsp : splitDot (GState.extendedName t.1 t.2.1) = [t.1, t.2.1] := splitDot_join hd.1 hd.2
    have hdot : hasDot (GState.extendedName t.1 t.2.1) = true := by rw [hasDot_iff]; simp [GState.extendedName]
    rw [if_pos hdot, hsp]
    dsimp only
    rw [hpair]
    exact g1

/-- Writing the parameters of one node. -/
theorem puts_node (n : Name) : ∀ (vars : Dict Name (Val α)) (A : Dict Name (Dict Name (Val α))) (B : Dict Name (Val α)), n ∉ A.keys → (B ++ vars).keys.Nodup →
    (vars.map fun r => (n, r.1, r.2)).foldl put (A ++ [(n, B)]) = A ++ [(n, B ++ vars)]
  | [], A, B, _, _ => by simp
  | (k, v) :: vars, A, B, hA, hnd => by
    have hget : Dict.get? (A ++ [(n, B)]) n = some B := by
      clear hnd
      induction A with
      | nil => simp [Dict.get?]
      | cons q A ih =>
        obtain ⟨a, b⟩ := q
        have ha : a ≠ n := by rintro rfl; simp at hA
        simp only [List.cons_append, Dict.get?_cons, if_neg ha]
        exact ih (by simp at hA; exact hA.2)
    have hset : ∀ X, Dict.set (A ++ [(n, B)]) n X = A ++ [(n, X)] := by
      intro X
      clear hnd hget
      induction A with
      | nil => simp [Dict.set]
      | cons q A ih =>
        obtain ⟨a, b⟩ := q
        have ha : a ≠ n := by rintro rfl; simp at hA
        simp only [List.cons_append, Dict.set, if_neg ha, List.cons.injEq, true_and]
        exact ih (by simp at hA; exact hA.2)
    have hk : k ∉ Dict.keys B := by
      have : (Dict.keys B ++ k :: Dict.keys vars).Nodup := by simpa [Dict.keys] using hnd
      rw [List.nodup_append] at this
      intro hm
      exact this.2.2 k hm k (by simp) rfl
    rw [List.map_cons, List.foldl_cons]
    have hp : put (A ++ [(n, B)]) (n, k, v) = A ++ [(n, B ++ [(k, v)])] := by
      unfold put
      dsimp only
      rw [hget, hset]
      simp only [Option.getD_some]
      rw [set_append _ _ _ hk]
    rw [hp, puts_node n vars A (B ++ [(k, v)]) hA (by simpa using hnd)]
    simp

theorem puts_all : ∀ (st A : Dict Name (Dict Name (Val α))), (A ++ st).keys.Nodup → (∀ q ∈ st, q.2 ≠ [] ∧ q.2.keys.Nodup) →
    (st.flatMap fun q => q.2.map fun r => (q.1, r.1, r.2)).foldl put A = A ++ st
  | [], A, _, _ => by simp
  | (n, vars) :: st, A, hnd, hv => by
    have hnd' : (Dict.keys A ++ n :: Dict.keys st).Nodup := by simpa [Dict.keys] using hnd
    have hnA : n ∉ Dict.keys A := by
      rw [List.nodup_append] at hnd'
      intro hm
      exact hnd'.2.2 n hm n (by simp) rfl
    obtain ⟨h1, h2⟩ := hv (n, vars) (by simp)
    rw [List.flatMap_cons, List.foldl_append]
    cases vars with
    | nil => exact absurd rfl h1
    | cons r vars =>
      obtain ⟨k, v⟩ := r
      rw [List.map_cons, List.foldl_cons]
      have hp : put A (n, k, v) = A ++ [(n, [(k, v)])] := by
        unfold put
        dsimp only
        rw [(Dict.get?_eq_none_iff _ _).2 hnA, set_append _ _ _ hnA]
        rfl
      dsimp only
      rw [hp, puts_node n vars A [(k, v)] hnA (by simpa using h2), puts_all st _ (by simpa [Dict.keys] using hnd) (fun q hq => hv q (List.mem_cons_of_mem _ hq))]
      simp

/-- `from_dict` of a state's dictionary restores the stored parameters exactly. -/
theorem fromDict_exact {s : GState α} (hs : Shape s) (hfull : ∀ n d, s.states.get? n = some d → d ≠ []) :
    ∃ s', GState.fromDict (s.toDict.map fun q => (q.1, GState.Entry.val q.2)) s.numSamples = .ok s' ∧ s'.states = s.states ∧ s'.numSamples = s.numSamples := by
  obtain ⟨s0, h0⟩ := init_ok (α := α) (n := s.numSamples) (by have := hs.pos; omega)
  have hn0 : s0.numSamples = s.numSamples ∧ s0.states = [] ∧ s0.fixed = [] := by
    unfold GState.init at h0
    split at h0
    · cases h0
    · cases h0; exact ⟨by simp, rfl, rfl⟩
  have hdots : ∀ t ∈ flat s, hasDot t.1 = false ∧ hasDot t.2.1 = false := by
    rintro ⟨n, p, v⟩ hm
    exact look_dotfree hs ((mem_flat_iff s hs n p v).1 hm)
  have hnorm : ∀ t ∈ flat s, GState.normalise s0.numSamples t.2.2 = .ok t.2.2 := by
    rintro ⟨n, p, v⟩ hm
    rw [hn0.1]
    exact normalise_stored s hs ((mem_flat_iff s hs n p v).1 hm)
  obtain ⟨s', g1, g2, g3⟩ := fromDictLoop_puts (flat s) s0 (init_writable h0 _ hdots fun t ht => ⟨_, hnorm t ht⟩) hnorm (by rw [hn0.2.2]; intro n fx h; cases h)
  refine ⟨s', ?_, ?_, g3.trans hn0.1⟩
  · unfold GState.fromDict
    simp only [bind, Except.bind]
    rw [h0, toDict_eq s hs]
    exact g1
  · rw [g2, hn0.2.1]
    unfold flat
    rw [puts_all _ _ (by simpa using hs.nodes)]
    · simp
    · intro q hq
      have := Dict.get?_of_mem hs.nodes (k := q.1) (v := q.2) hq
      exact ⟨hfull _ _ this, hs.vars _ _ this⟩

end LCL.RecordedLemmas
