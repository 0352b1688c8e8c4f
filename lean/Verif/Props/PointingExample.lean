import Verif.Props.PointingRun
import Verif.Props.EndToEnd

/-!
# A concrete run for C149: a source sampled around the one visit of a survey
-/

namespace LCL.PointingRunProps
open LCL LCL.NodeSpec LCL.GraphSpec LCL.EndToEnd LCL.EndToEndSpec LCL.FullRun LCL.FullRunSpec LCL.ObsSpec LCL.SimSpec LCL.PointingRun LCL.EndToEndProps LCL.SamplerProps

/-- The sampler of the one visit, half a degree around. -/
noncomputable def oneVisit : Pointing := ⟨⟨Pointing.columns [0] [0] [7], 1, false, 0⟩, 1, false, false⟩

theorem oneVisit_init : Pointing.init (some 1) none [0] [0] [7] false false false = .ok oneVisit := by
  unfold Pointing.init
  have : ¬ (1:ℝ) < 0 := by norm_num
  simp only [this, if_false]
  rfl

theorem oneVisit_body (a : Dict Name (Val ℝ)) : pointingBody zeroGen PointingProps.quarterGen oneVisit () 2 a =
    ((), .ok (.arr [.arr [.scalar 0, .scalar 0], .arr [.scalar (1 / 2), .scalar (1 / 2)], .arr [.scalar 7, .scalar 7]])) := by
  have hs : Real.sqrt (1 / 4) = 1 / 2 := by
    rw [show (1 / 4 : ℝ) = (1 / 2) ^ 2 by norm_num]
    exact Real.sqrt_sq (by norm_num)
  have h1 : Pointing.raOffset 1 (1 / 4) (1 / 4) = 0 := by
    unfold Pointing.raOffset
    rw [show 2 * Real.pi * (1 / 4) = Real.pi / 2 by ring, Real.cos_pi_div_two, mul_zero]
  have h2 : Pointing.decOffset 1 (1 / 4) (1 / 4) = 1 / 2 := by
    unfold Pointing.decOffset
    rw [show 2 * Real.pi * (1 / 4) = Real.pi / 2 by ring, Real.sin_pi_div_two, hs]
    norm_num
  have hc : oneVisit.table.collect ["ra".toList, "dec".toList, "time".toList] 2 [0, 0] = .ok [.arr [.scalar 0, .scalar 0], .arr [.scalar 0, .scalar 0], .arr [.scalar 7, .scalar 7]] := rfl
  have hi : oneVisit.table.indices zeroGen () 2 = ((oneVisit.table, ()), .ok [0, 0]) := rfl
  have hp : oneVisit.radius > 0 := by show (1 : ℝ) > 0; norm_num
  unfold pointingBody
  rw [hi]
  dsimp only
  rw [hc]
  dsimp only
  rw [if_pos hp]
  unfold moved Pointing.shift
  simp only [PointingProps.quarterGen, oneVisit, List.replicate, List.zipWith, h1, h2]
  norm_num

/-- The node as the constructor makes it: the sampler's own arguments do not matter, its outputs are `ra`, `dec` and `time`. -/
noncomputable def smpNode (pos : Option Nat) (str : Name) : PNode ℝ Unit :=
  ⟨"ObsTableRADECSampler".toList, some "where".toList, true, none, some (pointingBody zeroGen PointingProps.quarterGen oneVisit), [], pos, str,
    [("ra".toList, ⟨.computeOut "ra".toList, true⟩), ("dec".toList, ⟨.computeOut "dec".toList, true⟩), ("time".toList, ⟨.computeOut "time".toList, true⟩)], [], ["ra".toList, "dec".toList, "time".toList]⟩

noncomputable def srcSetters : Dict Name (Setter ℝ) :=
  [("ra".toList, ⟨.funcNode 1 "ra".toList, true⟩), ("dec".toList, ⟨.funcNode 1 "dec".toList, true⟩), ("redshift".toList, ⟨.const (.scalar 1), true⟩), ("t0".toList, ⟨.funcNode 1 "time".toList, true⟩)]

noncomputable def srcNode (pos : Option Nat) (str : Name) : PNode ℝ Unit :=
  ⟨"ConstModel".toList, some "source".toList, false, none, none, [], pos, str, srcSetters, [], []⟩

/-- The node's function, evaluated for two samples. -/
theorem body_eq : pointingBody zeroGen PointingProps.quarterGen oneVisit = fun r n a => if n = 2 then
    ((), .ok (.arr [.arr [.scalar 0, .scalar 0], .arr [.scalar (1 / 2), .scalar (1 / 2)], .arr [.scalar 7, .scalar 7]])) else pointingBody zeroGen PointingProps.quarterGen oneVisit r n a := by
  funext r n a
  by_cases h : n = 2
  · rw [if_pos h]
    subst h
    exact oneVisit_body a
  · rw [if_neg h]

theorem smp_eq (pos str) : smpNode pos str = ⟨"ObsTableRADECSampler".toList, some "where".toList, true, none, some (fun r n a => if n = 2 then
    ((), .ok (.arr [.arr [.scalar 0, .scalar 0], .arr [.scalar (1 / 2), .scalar (1 / 2)], .arr [.scalar 7, .scalar 7]])) else pointingBody zeroGen PointingProps.quarterGen oneVisit r n a), [], pos, str,
    [("ra".toList, ⟨.computeOut "ra".toList, true⟩), ("dec".toList, ⟨.computeOut "dec".toList, true⟩), ("time".toList, ⟨.computeOut "time".toList, true⟩)], [], ["ra".toList, "dec".toList, "time".toList]⟩ := by
  unfold smpNode
  rw [body_eq.symm]

noncomputable def srcParams : Dict Name (Val ℝ) :=
  [("ra".toList, .arr [.scalar 0, .scalar 0]), ("dec".toList, .arr [.scalar (1 / 2), .scalar (1 / 2)]), ("redshift".toList, .arr [.scalar 1, .scalar 1]), ("t0".toList, .arr [.scalar 7, .scalar 7])]

noncomputable def smpParams : Dict Name (Val ℝ) := [("ra".toList, .arr [.scalar 0, .scalar 0]), ("dec".toList, .arr [.scalar (1 / 2), .scalar (1 / 2)]), ("time".toList, .arr [.scalar 7, .scalar 7])]

theorem src_sample : ∃ r, Heap.sampleParameters [srcNode none [], smpNode none []] 0 [] none 2 () = .ok ([srcNode (some 0) "source".toList, smpNode (some 1) "where".toList], r) ∧
    r.gs.states = [("where".toList, smpParams), ("source".toList, srcParams)] ∧ r.gs.numSamples = 2 := by
  rw [smp_eq, smp_eq]
  refine ⟨_, rfl, rfl, rfl⟩

theorem src_keys : srcSetters.keys = ["ra".toList, "dec".toList, "redshift".toList, "t0".toList] := by
  simp only [srcSetters, Dict.keys_cons, Dict.keys_nil]

noncomputable def smpSetters : Dict Name (Setter ℝ) := [("ra".toList, ⟨.computeOut "ra".toList, true⟩), ("dec".toList, ⟨.computeOut "dec".toList, true⟩), ("time".toList, ⟨.computeOut "time".toList, true⟩)]

theorem smp_keys : smpSetters.keys = ["ra".toList, "dec".toList, "time".toList] := by
  simp only [smpSetters, Dict.keys_cons, Dict.keys_nil]

theorem src_graph : GraphOK [srcNode none [], smpNode none []] where
  keys := by
    intro nd h
    simp only [List.mem_cons, List.not_mem_nil, or_false] at h
    rcases h with rfl | rfl
    · show srcSetters.keys.Nodup
      rw [src_keys]; decide
    · show smpSetters.keys.Nodup
      rw [smp_keys]; decide
  links := by
    intro nd h q hq d hd
    simp only [List.mem_cons, List.not_mem_nil, or_false] at h
    rcases h with rfl | rfl
    · replace hq : q ∈ srcSetters := hq
      simp only [srcSetters, List.mem_cons, List.not_mem_nil, or_false] at hq
      rcases hq with rfl | rfl | rfl | rfl
      · cases hd; exact Nat.lt_succ_self 1
      · cases hd; exact Nat.lt_succ_self 1
      · cases hd
      · cases hd; exact Nat.lt_succ_self 1
    · replace hq : q ∈ smpSetters := hq
      simp only [smpSetters, List.mem_cons, List.not_mem_nil, or_false] at hq
      rcases hq with rfl | rfl | rfl <;> cases hd
  outs := by
    intro nd h p
    simp only [List.mem_cons, List.not_mem_nil, or_false] at h
    rcases h with rfl | rfl
    · refine ⟨fun hp => (by cases hp), ?_⟩
      rintro ⟨st, q, hq, e⟩
      replace hq : (p, st) ∈ srcSetters := hq
      simp only [srcSetters, List.mem_cons, List.not_mem_nil, or_false, Prod.mk.injEq] at hq
      rcases hq with ⟨_, rfl⟩ | ⟨_, rfl⟩ | ⟨_, rfl⟩ | ⟨_, rfl⟩ <;> cases e
    · constructor
      · intro hp
        replace hp : p ∈ (["ra".toList, "dec".toList, "time".toList] : List Name) := hp
        simp only [List.mem_cons, List.not_mem_nil, or_false] at hp
        rcases hp with rfl | rfl | rfl
        · exact ⟨⟨.computeOut "ra".toList, true⟩, _, List.mem_cons_self, rfl⟩
        · exact ⟨⟨.computeOut "dec".toList, true⟩, _, List.mem_cons_of_mem _ List.mem_cons_self, rfl⟩
        · exact ⟨⟨.computeOut "time".toList, true⟩, _, List.mem_cons_of_mem _ (List.mem_cons_of_mem _ List.mem_cons_self), rfl⟩
      · rintro ⟨st, q, hq, _⟩
        replace hq : (p, st) ∈ smpSetters := hq
        show p ∈ (["ra".toList, "dec".toList, "time".toList] : List Name)
        simp only [smpSetters, List.mem_cons, List.not_mem_nil, or_false, Prod.mk.injEq] at hq ⊢
        rcases hq with ⟨h, _⟩ | ⟨h, _⟩ | ⟨h, _⟩ <;> simp [h]
  outsNodup := by
    intro nd h
    simp only [List.mem_cons, List.not_mem_nil, or_false] at h
    rcases h with rfl | rfl
    · exact List.nodup_nil
    · show (["ra".toList, "dec".toList, "time".toList] : List Name).Nodup
      decide
  plain := by
    intro nd h hf
    simp only [List.mem_cons, List.not_mem_nil, or_false] at h
    rcases h with rfl | rfl
    · rfl
    · cases hf
  args := by
    intro nd h a ha
    simp only [List.mem_cons, List.not_mem_nil, or_false] at h
    rcases h with rfl | rfl <;> cases ha

theorem src_physical : FullRunSpec.Physical [srcNode none [], smpNode none []] 0 := by
  refine ⟨_, rfl, ?_⟩
  intro p hp
  have : p ∈ (srcNode none []).setters.keys := by
    rw [show (srcNode none []).setters = srcSetters from rfl, src_keys]
    simp only [List.mem_cons, List.not_mem_nil, or_false] at hp ⊢
    tauto
  obtain ⟨q, hq, rfl⟩ := List.mem_map.1 this
  exact ⟨q.2, hq⟩

/-- A source of constant flux 10. -/
noncomputable def tenEv : SurveyArg → List ℝ → List Name → SState ℝ → Unit → Except Err (List ℝ × Unit) := fun _ ts fs _ r =>
  if fs.length = ts.length then .ok (ts.map fun _ => 10, r) else .error .valueError

/-- Two such sources can be simulated in any survey whose table is sound. -/
theorem sim_ok (draw : Unit → ℝ × Unit) {a0 : SurveyArg} (ha0 : SoundOpsim a0) : ∃ out : Outcome Unit,
    simulateFullWith false (fun _ _ => tenEv) draw [srcNode none [], smpNode none []] 0 [] 2 [a0] [] [] (some [some 1, some 2]) () = .ok out := by
  obtain ⟨r, hsp, hst, hnum⟩ := src_sample
  obtain ⟨hsh, -⟩ := FullRunProps.base_parts src_graph src_physical hsp (nd := srcNode (some 0) "source".toList) rfl
  have hval : ∀ p x, srcParams.get? p = some (.arr [.scalar x, .scalar x]) → ∀ k : Nat, (k : Int) < 2 → sampleValue r.gs "source".toList p k = some (.scalar x) := by
    intro p x hp k hk
    unfold sampleValue
    rw [if_neg (by omega), GraphLemmas.read_eq_look _ hsh]
    unfold GraphLemmas.look
    rw [hst, Dict.get?_cons, if_neg (by decide), Dict.get?_cons, if_pos rfl, Option.bind_some, hp]
    have : k = 0 ∨ k = 1 := by omega
    rcases this with rfl | rfl <;> rfl
  have hans : ∀ a st F, EndToEndProps.Answers (tenEv a) st F := by
    intro a st F ts fs r hl _
    refine ⟨_, by unfold tenEv; rw [if_pos hl], by simp, ?_⟩
    intro x hx
    obtain ⟨_, _, rfl⟩ := List.mem_map.1 hx
    norm_num
  exact FullRunProps.C119_answers (isBand := false) (ev := fun _ _ => tenEv) draw src_graph src_physical (n := 2) (by norm_num) (args := [a0]) (paramCols := [])
    (offset := some [some 1, some 2]) hsp (nd := srcNode (some 0) "source".toList) rfl (Or.inl rfl)
    (by
      intro k hk node p x hx
      unfold sampleValue at hx
      rw [if_neg (by omega), GraphLemmas.read_eq_look _ hsh] at hx
      cases hl : GraphLemmas.look r.gs node p with
      | none => rw [hl] at hx; cases hx
      | some v =>
        rw [hl] at hx
        have hv : ∃ y, v = .arr [.scalar y, .scalar y] := by
          unfold GraphLemmas.look at hl
          rw [hst, Dict.get?_cons, Dict.get?_cons] at hl
          have key : ∀ d : Dict Name (Val ℝ), (∀ q ∈ d, ∃ y : ℝ, q.2 = .arr [.scalar y, .scalar y]) → d.get? p = some v → ∃ y, v = .arr [.scalar y, .scalar y] :=
            fun d hd h => hd _ (Dict.mem_of_get? h)
          split at hl
          · refine key smpParams ?_ hl
            intro q hq
            simp only [smpParams, List.mem_cons, List.not_mem_nil, or_false] at hq
            rcases hq with rfl | rfl | rfl <;> exact ⟨_, rfl⟩
          · split at hl
            · refine key srcParams ?_ hl
              intro q hq
              simp only [srcParams, List.mem_cons, List.not_mem_nil, or_false] at hq
              rcases hq with rfl | rfl | rfl | rfl <;> exact ⟨_, rfl⟩
            · cases hl
        obtain ⟨y, rfl⟩ := hv
        have : k = 0 ∨ k = 1 := by omega
        rcases this with rfl | rfl <;> exact Or.inr ⟨_, (Option.some.inj hx).symm⟩)
    (fun k hk => ⟨0, 1 / 2, hval _ _ rfl k hk, hval _ _ rfl k hk⟩) (Or.inr ⟨some 1, some 2, rfl, fun k hk => ⟨7, hval _ _ rfl k hk⟩⟩) (by intro c hc; cases hc) (by intro c hc; cases hc)
    (by intro st k _ _ a _ F _; exact hans a st F) (by intro a ha; rw [List.mem_singleton] at ha; subst ha; exact ha0.table)

/-- Two such sources, simulated in the survey of one visit with a window around `t0`: the sampler places both half a degree from where the visit looks, at its time, and both are observed. -/
example (draw : Unit → ℝ × Unit) : ∃ out : Outcome Unit,
    simulateFullWith false (fun _ _ => tenEv) draw [srcNode none [], smpNode none []] 0 [] 2 [lsstArg] [] [] (some [some 1, some 2]) () = .ok out ∧
    ∃ nobs : List Nat, nobs.length = 2 ∧ IsColumn out.table "nobs" 2 (fun k => nobs[k]?.map .int) ∧ ∀ c ∈ nobs, 0 < c := by
  obtain ⟨r, hsp, hst, hnum⟩ := src_sample
  obtain ⟨out, ho⟩ := sim_ok draw lsst_sound
  refine ⟨out, ho, ?_⟩
  obtain ⟨_, _, run, h1, h2, _⟩ := FullRunProps.C119_sampled src_graph ho
  have hgr : out.graph = [srcNode (some 0) "source".toList, smpNode (some 1) "where".toList] := by
    rw [hsp] at h1
    exact (congrArg Prod.fst (Except.ok.inj h1)).symm
  obtain ⟨N, w1, inds, nobs, g1, -, -, g4, g5, g6⟩ := C149_observed zeroGen PointingProps.quarterGen oneVisit_init (sid := 1)
    src_graph src_physical (Or.inl (by norm_num)) (offset := some [some 1, some 2]) (Or.inr ⟨some 1, some 2, rfl, by intro x h; cases h; norm_num, by intro x h; cases h; norm_num⟩)
    (fun _ _ _ _ x => x = 10) (by intro c hc; cases hc) (by intro a ha; rw [List.mem_singleton] at ha; subst ha; exact lsst_built)
    (by intro a ha; rw [List.mem_singleton] at ha; subst ha; exact ⟨1, rfl, by norm_num, by norm_num⟩) (by simp) ho
    (by
      intro nd _ a ts fs st r p r' h
      simp only [tenEv] at h
      split at h
      · cases h; simp
      · cases h)
    (by
      intro nd st k a _ _ _ _ ts fs r p r' h
      simp only [tenEv] at h
      split at h
      · rename_i hl
        cases h
        refine ⟨rfl, by simp, hl, ?_⟩
        intro i t f x _ _ hx
        rw [List.getElem?_map] at hx
        cases ht : ts[i]? with
        | none => rw [ht] at hx; cases hx
        | some y => rw [ht] at hx; cases hx; rfl
      · cases h)
    (j := 0) (a := lsstArg) rfl (R := 1) rfl le_rfl (by intro fp h; cases h)
    (by
      intro i a d m h1 h2 h3
      cases i with
      | zero => cases h1; cases h2; cases h3; exact ⟨rfl, rfl, rfl⟩
      | succ i => cases h1)
    (nd := srcNode (some 0) "source".toList) (sn := smpNode (some 1) "where".toList) (by rw [hgr]; rfl) (by rw [hgr]; rfl) rfl rfl
    (sra := ⟨.funcNode 1 "ra".toList, true⟩) (sdec := ⟨.funcNode 1 "dec".toList, true⟩) (st0 := ⟨.funcNode 1 "time".toList, true⟩) List.mem_cons_self rfl
    (List.mem_cons_of_mem _ List.mem_cons_self) rfl (List.mem_cons_of_mem _ (List.mem_cons_of_mem _ (List.mem_cons_of_mem _ List.mem_cons_self))) rfl
  have hN : N = 2 := by omega
  subst hN
  refine ⟨nobs, g4, g5, fun c hc => ?_⟩
  obtain ⟨k, hk, rfl⟩ := List.getElem_of_mem hc
  obtain ⟨_, _, _, _, _, _, _, _, _, ⟨c, e1, e2⟩, -⟩ := g6 k (by omega)
  rw [List.getElem?_eq_getElem hk] at e1
  cases e1
  exact Nat.lt_of_le_of_lt (Nat.zero_le _) e2

end LCL.PointingRunProps
