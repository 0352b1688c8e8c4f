import Verif.Props.CoverageRun
import Verif.Props.EndToEnd

/-!
# A concrete run for C148: a constant source placed by the coverage sampler of a survey of one visit
-/

namespace LCL.CoverageRunProps
open LCL LCL.NodeSpec LCL.GraphSpec LCL.EndToEnd LCL.EndToEndSpec LCL.FullRun LCL.FullRunSpec LCL.ObsSpec LCL.SimSpec LCL.CoverageRun LCL.EndToEndProps

/-- A generator that gives 0 and one half by turns. -/
noncomputable def turnGen : UnitGen Nat ℝ where
  draw r n := (r + 1, List.replicate n (if r % 2 = 0 then 0 else 1 / 2))
  length r n := by simp
  nonneg r n u hu := by
    rw [List.eq_of_mem_replicate hu]
    split <;> norm_num
  lt_one r n u hu := by
    rw [List.eq_of_mem_replicate hu]
    split <;> norm_num

theorem lsst_match : Match lsstTable (0, 0) 1 none none 0 := by
  refine ⟨0, 0, rfl, rfl, ?_, (by intro b h; cases h), (by intro b h; cases h), (by intro fp h; cases h)⟩
  unfold sep
  norm_num
  positivity

theorem ask_lsst : askCoverage lsstTable 1 [(0, 0), (0, 0)] = .ok [true, true] := by
  have : ∃ l l', lsstTable.rangeSearch (.arr [some 0, some 0]) (.arr [some 0, some 0]) (some 1) .none .none = .ok (.many [l, l']) := by
    unfold ObsTable.rangeSearch
    have hq : ObsTable.queryPoints (.arr [some 0, some 0]) (.arr [some 0, some 0]) = .ok [(0, 0), (0, 0)] := by
      simp [ObsTable.queryPoints, ObsTable.QArg.values]
    have hr : ∀ t : ObsTable, (some (1 : ℝ) <|> t.radius) = some 1 := fun _ => rfl
    rw [hq]
    simp only [hr, List.map_cons, List.map_nil, ObsTable.timeStep, ObsTable.TArg.isNone, and_self, if_true, ObsTable.footprintStep, lsstTable,
      ObsTable.QArg.isScalar, and_false, Bool.false_eq_true, if_false]
    exact ⟨_, _, rfl⟩
  obtain ⟨l, l', hl⟩ := this
  have hask : askCoverage lsstTable 1 [(0, 0), (0, 0)] = .ok [decide (0 < l.length), decide (0 < l'.length)] := by
    unfold askCoverage ObsTable.isObserved
    simp only [List.map_cons, List.map_nil]
    rw [hl]
    simp [ObsTable.QArg.isScalar]
  rw [hask]
  obtain ⟨-, hT⟩ := ask_spec lsst_built (by norm_num) (by norm_num) hask
  rw [(hT 0 _ _ rfl rfl).2 ⟨0, lsst_match⟩, (hT 1 _ _ rfl rfl).2 ⟨0, lsst_match⟩]

theorem cover_lsst : cover turnGen lsstTable 1 1 2 4 = (6, .ok ([(0, 0), (0, 0)], [true, true])) := by
  unfold cover coverLoop
  have h1 : uniformRa true 0 = 0 := by simp [uniformRa, degrees]
  have h2 : uniformDec true (1 / 2) = 0 := by
    unfold uniformDec
    norm_num [degrees]
  have h3 : missing (List.replicate 2 false) = 2 := rfl
  rw [if_pos (by rw [h3]; norm_num)]
  simp only [h3, turnGen, List.replicate, List.map_cons, List.map_nil, refill, List.zip_cons_cons, List.zip_nil_right]
  norm_num [h1, h2, coverLoop]
  have e : refill [((0 : ℝ), (0 : ℝ)), (0, 0)] [false, false] (List.replicate (missing [false, false]) (0, 0)) = [(0, 0), (0, 0)] := rfl
  rw [e, ask_lsst]

/-- The node as the constructor makes it: the sampler's own arguments do not matter, its outputs are `ra` and `dec`. -/
noncomputable def smpNode (pos : Option Nat) (str : Name) : PNode ℝ Nat :=
  ⟨"ObsTableUniformRADECSampler".toList, some "where".toList, true, none, some (coverageBody turnGen lsstTable 1 1), [], pos, str,
    [("ra".toList, ⟨.computeOut "ra".toList, true⟩), ("dec".toList, ⟨.computeOut "dec".toList, true⟩)], [], ["ra".toList, "dec".toList]⟩

noncomputable def srcSetters : Dict Name (Setter ℝ) :=
  [("ra".toList, ⟨.funcNode 1 "ra".toList, true⟩), ("dec".toList, ⟨.funcNode 1 "dec".toList, true⟩), ("redshift".toList, ⟨.const (.scalar 1), true⟩), ("t0".toList, ⟨.const (.scalar 3), true⟩)]

noncomputable def srcNode (pos : Option Nat) (str : Name) : PNode ℝ Nat :=
  ⟨"ConstModel".toList, some "source".toList, false, none, none, [], pos, str, srcSetters, [], []⟩

/-- The node's function, evaluated for two samples in the world 4. -/
theorem body_eq : coverageBody turnGen lsstTable 1 1 = fun r n a => if r = 4 ∧ n = 2 then
    (6, .ok (.arr [.arr [.scalar 0, .scalar 0], .arr [.scalar 0, .scalar 0]])) else coverageBody turnGen lsstTable 1 1 r n a := by
  funext r n a
  by_cases h : r = 4 ∧ n = 2
  · rw [if_pos h]
    obtain ⟨rfl, rfl⟩ := h
    unfold coverageBody
    rw [cover_lsst]
    rfl
  · rw [if_neg h]

theorem smp_eq (pos str) : smpNode pos str = ⟨"ObsTableUniformRADECSampler".toList, some "where".toList, true, none, some (fun r n a => if r = 4 ∧ n = 2 then
    (6, .ok (.arr [.arr [.scalar 0, .scalar 0], .arr [.scalar 0, .scalar 0]])) else coverageBody turnGen lsstTable 1 1 r n a), [], pos, str,
    [("ra".toList, ⟨.computeOut "ra".toList, true⟩), ("dec".toList, ⟨.computeOut "dec".toList, true⟩)], [], ["ra".toList, "dec".toList]⟩ := by
  unfold smpNode
  rw [body_eq.symm]

noncomputable def srcParams : Dict Name (Val ℝ) :=
  [("ra".toList, .arr [.scalar 0, .scalar 0]), ("dec".toList, .arr [.scalar 0, .scalar 0]), ("redshift".toList, .arr [.scalar 1, .scalar 1]), ("t0".toList, .arr [.scalar 3, .scalar 3])]

noncomputable def smpParams : Dict Name (Val ℝ) := [("ra".toList, .arr [.scalar 0, .scalar 0]), ("dec".toList, .arr [.scalar 0, .scalar 0])]

theorem src_sample : ∃ r, Heap.sampleParameters [srcNode none [], smpNode none []] 0 [] none 2 (4 : Nat) = .ok ([srcNode (some 0) "source".toList, smpNode (some 1) "where".toList], r) ∧
    r.gs.states = [("where".toList, smpParams), ("source".toList, srcParams)] ∧ r.gs.numSamples = 2 := by
  rw [smp_eq, smp_eq]
  refine ⟨_, rfl, rfl, rfl⟩

theorem src_keys : srcSetters.keys = ["ra".toList, "dec".toList, "redshift".toList, "t0".toList] := by
  simp only [srcSetters, Dict.keys_cons, Dict.keys_nil]

noncomputable def smpSetters : Dict Name (Setter ℝ) := [("ra".toList, ⟨.computeOut "ra".toList, true⟩), ("dec".toList, ⟨.computeOut "dec".toList, true⟩)]

theorem smp_keys : smpSetters.keys = ["ra".toList, "dec".toList] := by
  simp only [smpSetters, Dict.keys_cons, Dict.keys_nil]

theorem src_graph : GraphOK [srcNode none [], smpNode none []] where
  keys := by
    intro nd h
    simp only [List.mem_cons, List.not_mem_nil, or_false] at h
    rcases h with rfl | rfl
    · show srcSetters.keys.Nodup
      rw [src_keys]; decide
    · show smpSetters.keys.Nodup
      rw [smp_keys]; decide
  links := by
    intro nd h q hq d hd
    simp only [List.mem_cons, List.not_mem_nil, or_false] at h
    rcases h with rfl | rfl
    · replace hq : q ∈ srcSetters := hq
      simp only [srcSetters, List.mem_cons, List.not_mem_nil, or_false] at hq
      rcases hq with rfl | rfl | rfl | rfl
      · cases hd; exact Nat.lt_succ_self 1
      · cases hd; exact Nat.lt_succ_self 1
      · cases hd
      · cases hd
    · replace hq : q ∈ smpSetters := hq
      simp only [smpSetters, List.mem_cons, List.not_mem_nil, or_false] at hq
      rcases hq with rfl | rfl <;> cases hd
  outs := by
    intro nd h p
    simp only [List.mem_cons, List.not_mem_nil, or_false] at h
    rcases h with rfl | rfl
    · refine ⟨fun hp => (by cases hp), ?_⟩
      rintro ⟨st, q, hq, e⟩
      replace hq : (p, st) ∈ srcSetters := hq
      simp only [srcSetters, List.mem_cons, List.not_mem_nil, or_false, Prod.mk.injEq] at hq
      rcases hq with ⟨_, rfl⟩ | ⟨_, rfl⟩ | ⟨_, rfl⟩ | ⟨_, rfl⟩ <;> cases e
    · constructor
      · intro hp
        replace hp : p ∈ (["ra".toList, "dec".toList] : List Name) := hp
        simp only [List.mem_cons, List.not_mem_nil, or_false] at hp
        rcases hp with rfl | rfl
        · exact ⟨⟨.computeOut "ra".toList, true⟩, _, List.mem_cons_self, rfl⟩
        · exact ⟨⟨.computeOut "dec".toList, true⟩, _, List.mem_cons_of_mem _ List.mem_cons_self, rfl⟩
      · rintro ⟨st, q, hq, _⟩
        replace hq : (p, st) ∈ smpSetters := hq
        show p ∈ (["ra".toList, "dec".toList] : List Name)
        simp only [smpSetters, List.mem_cons, List.not_mem_nil, or_false, Prod.mk.injEq] at hq ⊢
        rcases hq with ⟨h, _⟩ | ⟨h, _⟩ <;> simp [h]
  outsNodup := by
    intro nd h
    simp only [List.mem_cons, List.not_mem_nil, or_false] at h
    rcases h with rfl | rfl
    · exact List.nodup_nil
    · show (["ra".toList, "dec".toList] : List Name).Nodup
      decide
  plain := by
    intro nd h hf
    simp only [List.mem_cons, List.not_mem_nil, or_false] at h
    rcases h with rfl | rfl
    · rfl
    · cases hf
  args := by
    intro nd h a ha
    simp only [List.mem_cons, List.not_mem_nil, or_false] at h
    rcases h with rfl | rfl <;> cases ha

theorem src_physical : FullRunSpec.Physical [srcNode none [], smpNode none []] 0 := by
  refine ⟨_, rfl, ?_⟩
  intro p hp
  have : p ∈ (srcNode none []).setters.keys := by
    rw [show (srcNode none []).setters = srcSetters from rfl, src_keys]
    simp only [List.mem_cons, List.not_mem_nil, or_false] at hp ⊢
    tauto
  obtain ⟨q, hq, rfl⟩ := List.mem_map.1 this
  exact ⟨q.2, hq⟩

/-- A source of constant flux 10. -/
noncomputable def tenEv : SurveyArg → List ℝ → List Name → SState ℝ → Nat → Except Err (List ℝ × Nat) := fun _ ts fs _ r =>
  if fs.length = ts.length then .ok (ts.map fun _ => 10, r) else .error .valueError

/-- Two such sources, simulated in the survey of one visit: the sampler places both where the visit looks, and both are observed. -/
example (draw : Nat → ℝ × Nat) : ∃ out : Outcome Nat,
    simulateFullWith false (fun _ _ => tenEv) draw [srcNode none [], smpNode none []] 0 [] 2 [lsstArg] [] [] none 4 = .ok out ∧
    ∃ nobs : List Nat, nobs.length = 2 ∧ IsColumn out.table "nobs" 2 (fun k => nobs[k]?.map .int) ∧ ∀ c ∈ nobs, 0 < c := by
  obtain ⟨r, hsp, hst, hnum⟩ := src_sample
  obtain ⟨hsh, -⟩ := FullRunProps.base_parts src_graph src_physical hsp (nd := srcNode (some 0) "source".toList) rfl
  have hval : ∀ p x, srcParams.get? p = some (.arr [.scalar x, .scalar x]) → ∀ k : Nat, (k : Int) < 2 → sampleValue r.gs "source".toList p k = some (.scalar x) := by
    intro p x hp k hk
    unfold sampleValue
    rw [if_neg (by omega), GraphLemmas.read_eq_look _ hsh]
    unfold GraphLemmas.look
    rw [hst, Dict.get?_cons, if_neg (by decide), Dict.get?_cons, if_pos rfl, Option.bind_some, hp]
    have : k = 0 ∨ k = 1 := by omega
    rcases this with rfl | rfl <;> rfl
  have hans : ∀ a st F, EndToEndProps.Answers (tenEv a) st F := by
    intro a st F ts fs r hl _
    refine ⟨_, by unfold tenEv; rw [if_pos hl], by simp, ?_⟩
    intro x hx
    obtain ⟨_, _, rfl⟩ := List.mem_map.1 hx
    norm_num
  obtain ⟨out, ho⟩ := FullRunProps.C119_answers (isBand := false) (ev := fun _ _ => tenEv) draw src_graph src_physical (n := 2) (by norm_num) (args := [lsstArg]) (paramCols := [])
    (offset := none) hsp (nd := srcNode (some 0) "source".toList) rfl (Or.inl rfl)
    (by
      intro k hk node p x hx
      unfold sampleValue at hx
      rw [if_neg (by omega), GraphLemmas.read_eq_look _ hsh] at hx
      cases hl : GraphLemmas.look r.gs node p with
      | none => rw [hl] at hx; cases hx
      | some v =>
        rw [hl] at hx
        have hv : ∃ y, v = .arr [.scalar y, .scalar y] := by
          unfold GraphLemmas.look at hl
          rw [hst, Dict.get?_cons, Dict.get?_cons] at hl
          have key : ∀ d : Dict Name (Val ℝ), (∀ q ∈ d, ∃ y : ℝ, q.2 = .arr [.scalar y, .scalar y]) → d.get? p = some v → ∃ y, v = .arr [.scalar y, .scalar y] :=
            fun d hd h => hd _ (Dict.mem_of_get? h)
          split at hl
          · refine key smpParams ?_ hl
            intro q hq
            simp only [smpParams, List.mem_cons, List.not_mem_nil, or_false] at hq
            rcases hq with rfl | rfl <;> exact ⟨_, rfl⟩
          · split at hl
            · refine key srcParams ?_ hl
              intro q hq
              simp only [srcParams, List.mem_cons, List.not_mem_nil, or_false] at hq
              rcases hq with rfl | rfl | rfl | rfl <;> exact ⟨_, rfl⟩
            · cases hl
        obtain ⟨y, rfl⟩ := hv
        have : k = 0 ∨ k = 1 := by omega
        rcases this with rfl | rfl <;> exact Or.inr ⟨_, (Option.some.inj hx).symm⟩)
    (fun k hk => ⟨0, 0, hval _ _ rfl k hk, hval _ _ rfl k hk⟩) (Or.inl rfl) (by intro c hc; cases hc) (by intro c hc; cases hc)
    (by intro st k _ _ a _ F _; exact hans a st F) (by intro a ha; rw [List.mem_singleton] at ha; subst ha; exact lsst_sound.table)
  refine ⟨out, ho, ?_⟩
  obtain ⟨_, _, run, h1, h2, _⟩ := FullRunProps.C119_sampled src_graph ho
  have hgr : out.graph = [srcNode (some 0) "source".toList, smpNode (some 1) "where".toList] := by
    rw [hsp] at h1
    exact (congrArg Prod.fst (Except.ok.inj h1)).symm
  obtain ⟨N, w1, w2, pts, mask, nobs, g1, g2, l1, l2, l3, l4, g4, g5, -, g6, -⟩ := C148_observed turnGen (t := lsstTable) (rad := 1) (R := 1) (by norm_num) le_rfl (maxIter := 1) (by norm_num)
    src_graph src_physical (fun _ _ _ _ x => x = 10) (by intro c hc; cases hc) (by intro a ha; rw [List.mem_singleton] at ha; subst ha; exact lsst_built)
    (by intro a ha; rw [List.mem_singleton] at ha; subst ha; exact ⟨1, rfl, by norm_num, by norm_num⟩) (by simp) ho
    (by
      intro nd _ a ts fs st r p r' h
      simp only [tenEv] at h
      split at h
      · cases h; simp
      · cases h)
    (by
      intro nd st k a _ _ _ _ ts fs r p r' h
      simp only [tenEv] at h
      split at h
      · rename_i hl
        cases h
        refine ⟨rfl, by simp, hl, ?_⟩
        intro i t f x _ _ hx
        rw [List.getElem?_map] at hx
        cases ht : ts[i]? with
        | none => rw [ht] at hx; cases hx
        | some y => rw [ht] at hx; cases hx; rfl
      · cases h)
    (a := lsstArg) (by simp) rfl rfl (nd := srcNode (some 0) "source".toList) (sn := smpNode (some 1) "where".toList) (sid := 1) (by rw [hgr]; rfl) (by rw [hgr]; rfl) rfl rfl
    (sra := ⟨.funcNode 1 "ra".toList, true⟩) (sdec := ⟨.funcNode 1 "dec".toList, true⟩) List.mem_cons_self rfl (List.mem_cons_of_mem _ List.mem_cons_self) rfl
  have hN : N = 2 := by omega
  subst hN
  refine ⟨nobs, g4, g5, ?_⟩
  refine g6 (List.count_eq_zero.2 fun hf => ?_)
  obtain ⟨k, hk, e⟩ := List.getElem_of_mem hf
  have hp : pts[k]? = some (pts[k]'(by omega)) := List.getElem?_eq_getElem _
  obtain ⟨x1, x2⟩ := l4 k _ hp
  have hs : out.sampled = r.gs := by rw [hsp] at h1; rw [← h2, (Prod.mk.inj (Except.ok.inj h1)).2]
  rw [hs] at x1 x2
  have y1 := x1.symm.trans (hval "ra".toList 0 rfl k (by omega))
  have y2 := x2.symm.trans (hval "dec".toList 0 rfl k (by omega))
  have z1 : (pts[k]'(by omega)).1 = 0 := by injection y1 with y1; injection y1
  have z2 : (pts[k]'(by omega)).2 = 0 := by injection y2 with y2; injection y2
  have hz : pts[k]'(by omega) = (0, 0) := Prod.ext z1 z2
  rw [hz] at hp
  have := (l3 k _ false hp (by rw [List.getElem?_eq_getElem hk, e])).2 ⟨0, lsst_match⟩
  cases this

end LCL.CoverageRunProps
