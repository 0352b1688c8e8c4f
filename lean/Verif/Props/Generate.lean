import Verif.Props.Nodes2
import Verif.Props.Nodes1
import Verif.Props.Compute
import Verif.Props.Pytree
import Verif.Props.NodeExamples

/-!
# Property C63: `generate` and `get_param`; examples for C17
-/

namespace LCL.GenerateProps
open LCL LCL.GraphSpec LCL.GraphLemmas LCL.NodeSpec LCL.NodeLemmas
variable {α σ : Type}

theorem graphOK_assign {H : Heap α σ} (hG : GraphOK H) (order : List NodeId) : GraphOK (Heap.assign H order) := by
  have key : ∀ nd ∈ Heap.assign H order, ∃ od ∈ H, nd.setters = od.setters ∧ nd.outputs = od.outputs ∧
      nd.isFunc = od.isFunc ∧ nd.argNames = od.argNames := by
    intro nd hm
    obtain ⟨i, hi, rfl⟩ := List.getElem_of_mem hm
    have hi' : i < H.length := by simpa [Heap.assign] using hi
    refine ⟨H[i], List.getElem_mem _, ?_⟩
    simp only [Heap.assign, List.getElem_mapIdx]
    split <;> simp [PNode.updateString]
  have hlen : (Heap.assign H order).length = H.length := by simp [Heap.assign]
  refine ⟨?_, ?_, ?_, ?_, ?_, ?_⟩
  · intro nd h; obtain ⟨od, h1, e1, _⟩ := key nd h; rw [e1]; exact hG.keys od h1
  · intro nd h; obtain ⟨od, h1, e1, _⟩ := key nd h; rw [e1, hlen]; exact hG.links od h1
  · intro nd h; obtain ⟨od, h1, e1, e2, _⟩ := key nd h; rw [e1, e2]; exact hG.outs od h1
  · intro nd h; obtain ⟨od, h1, e1, e2, _⟩ := key nd h; rw [e2]; exact hG.outsNodup od h1
  · intro nd h; obtain ⟨od, h1, e1, e2, e3, _⟩ := key nd h; rw [e2, e3]; exact hG.plain od h1
  · intro nd h; obtain ⟨od, h1, e1, e2, e3, e4⟩ := key nd h; rw [e2, e4]; exact hG.args od h1

/-- C63 (`get_param`). A stored parameter is returned, whatever the default. -/
theorem C63_get_param (nd : PNode α σ) (s : GState α) (hs : Reachable s) (name : Name) (v dflt : Val α)
    (h : readParam s nd.str name = some v) : Heap.getParam nd s name dflt = .ok v := by
  rw [read_eq_look _ (reachable_wf hs).toShape] at h
  unfold look at h
  cases hd : s.states.get? nd.str with
  | none => simp [hd] at h
  | some d =>
    simp only [hd, Option.bind_some] at h
    unfold Heap.getParam GState.contains GState.getItem Dict.has
    simp [hd, h]

theorem getParam_look (nd : PNode α σ) (s : GState α) (name : Name) (v dflt : Val α)
    (h : look s nd.str name = some v) : Heap.getParam nd s name dflt = .ok v := by
  unfold look at h
  cases hd : s.states.get? nd.str with
  | none => simp [hd] at h
  | some d =>
    simp only [hd, Option.bind_some] at h
    unfold Heap.getParam GState.contains GState.getItem Dict.has
    simp [hd, h]

/-- C63 (`get_param` default). A parameter of a node that is in the state, but does not have that
parameter, yields the default. -/
theorem C63_get_param_default (nd : PNode α σ) (s : GState α) (hs : Reachable s) (name other : Name)
    (v dflt : Val α) (h : readParam s nd.str other = some v) (hno : readParam s nd.str name = none) :
    Heap.getParam nd s name dflt = .ok dflt := by
  rw [read_eq_look _ (reachable_wf hs).toShape] at h hno
  unfold look at h hno
  cases hd : s.states.get? nd.str with
  | none => simp [hd] at h
  | some d =>
    simp only [hd, Option.bind_some] at h hno
    unfold Heap.getParam GState.contains GState.getItem Dict.has
    simp [hd, hno]

theorem mapM_getParam (nd : PNode α σ) (s : GState α) : ∀ (l : List Name) (vs : List (Val α)),
    (l.mapM fun o => Heap.getParam nd s o .none) = (.ok vs : Except Err _) →
    (∀ o ∈ l, ∃ v, look s nd.str o = some v) →
    vs.map some = l.map (look s nd.str) := by
  intro l
  induction l with
  | nil => intro vs h _; cases h; rfl
  | cons o l ih =>
    intro vs h hall
    obtain ⟨v, hv⟩ := hall o (by simp)
    rw [List.mapM_cons, getParam_look nd s o v .none hv] at h
    simp only [bind, Except.bind] at h
    cases hr : (l.mapM fun o => Heap.getParam nd s o .none : Except Err _) with
    | error e => rw [hr] at h; cases h
    | ok ws => rw [hr] at h; cases h; simp [hv, ih ws hr (fun x hx => hall x (List.mem_cons_of_mem _ hx))]

/-- C63 (`generate`). `generate` returns the value sampled for the node's output — for several
outputs, the list of their values in declaration order — of one `sample_parameters` run. -/
theorem C63_generate {H : Heap α σ} (hG : GraphOK H) (root : NodeId)
    {given : Option (GState.UpdateArg α)} (hg : GivenOK given) (n : Int) (w : σ) (res : Val α)
    (h : Heap.generate H root given n w = .ok res) :
    ∃ H' r nd, Heap.sampleParameters H root [] given n w = .ok (H', r) ∧ H'[root]? = some nd ∧
      ((∃ o, nd.outputs = [o] ∧ readParam r.gs nd.str o = some res) ∨
       (nd.outputs.length ≠ 1 ∧ ∃ vs, res = .arr vs ∧
        vs.map some = nd.outputs.map (readParam r.gs nd.str))) := by
  unfold Heap.generate at h
  simp only [bind, Except.bind] at h
  cases hsp : Heap.sampleParameters H root [] given n w with
  | error e => rw [hsp] at h; cases h
  | ok x =>
    obtain ⟨H', r⟩ := x
    rw [hsp] at h
    simp only at h
    have hsf : GraphOK H' ∧ Heap.sampleFrom H' [root] given n w = .ok r := by
      unfold Heap.sampleParameters at hsp
      split at hsp
      · cases hsp
      · rename_i nd hid
        simp only [bind, Except.bind, List.nil_append] at hsp
        by_cases hp : nd.pos = none
        · simp only [hp, if_true] at hsp
          unfold Heap.setPositions at hsp
          simp only [bind, Except.bind] at hsp
          cases hv : Heap.visitAll H [root] with
          | error e => rw [hv] at hsp; cases hsp
          | ok order =>
            rw [hv] at hsp
            simp only [pure, Except.pure] at hsp
            cases h4 : Heap.sampleFrom (H.assign order) [root] given n w with
            | error e => rw [h4] at hsp; cases hsp
            | ok r' => rw [h4] at hsp; cases hsp; exact ⟨graphOK_assign hG order, h4⟩
        · simp only [hp, if_false] at hsp
          cases h4 : Heap.sampleFrom H [root] given n w with
          | error e => rw [h4] at hsp; cases hsp
          | ok r' => rw [h4] at hsp; cases hsp; exact ⟨hG, h4⟩
    obtain ⟨hG', hsf⟩ := hsf
    obtain ⟨hinv, _, _, _, _⟩ := NodeProps.sampleFrom_all hG' hg hsf
    obtain ⟨_, hcomp, _⟩ := NodeProps.C14_complete hG' hg hsf
    have hread : ∀ a b, readParam r.gs a b = look r.gs a b := read_eq_look _ hinv.wf.toShape
    split at h
    · cases h
    · rename_i nd hid
      refine ⟨H', r, nd, rfl, hid, ?_⟩
      have hst : ∀ o ∈ nd.outputs, ∃ v, look r.gs nd.str o = some v := by
        intro o ho
        obtain ⟨st, q, hm, _⟩ := (hG'.outs nd (List.mem_of_getElem? hid) o).1 ho
        obtain ⟨v, hv, _⟩ := hcomp root nd (Reach.root (by simp)) hid _ hm
        exact ⟨v, by rw [← hread]; exact hv⟩
      split at h
      · rename_i o ho
        left
        obtain ⟨v, hv⟩ := hst o (by rw [ho]; simp)
        rw [getParam_look nd r.gs o v .none hv] at h
        cases h
        exact ⟨o, ho, by rw [hread]; exact hv⟩
      · rename_i hne
        right
        refine ⟨?_, ?_⟩
        · intro hl
          obtain ⟨o, ho⟩ := List.length_eq_one_iff.1 hl
          exact hne o ho
        · cases hm : (nd.outputs.mapM fun o => Heap.getParam nd r.gs o .none : Except Err _) with
          | error e => rw [hm] at h; cases h
          | ok vs =>
            rw [hm] at h; cases h
            refine ⟨vs, rfl, ?_⟩
            rw [mapM_getParam nd r.gs _ vs hm hst]
            exact List.map_congr_left (fun o _ => (hread _ _).symm)

/-- `generate` on the two-output function of the examples. -/
example : Heap.generate (Heap.applyAll []
    [.newFunction "F".toList (some ['f']) none (some NodeExamples.two) funcAttrs [['p'], ['q']] []])
    0 none 1 0 = .ok (.arr [.scalar 1, .scalar 2]) := rfl

/-- A pytree: the constant of the model and, through the (non-gradient) link, the one of the host. -/
example :
    let H : Heap Nat Nat := Heap.applyAll [] [.newNode "H".toList (some ['h']) [],
      .addParameter 0 ['z'] (.const (.scalar 5)) none [],
      .newNode "M".toList (some ['m']) [], .addParameter 1 ['a'] (.const (.scalar 7)) none [],
      .addParameter 1 ['b'] (.const (.scalar 7)) (some false) [],
      .addParameter 1 ['z'] (.node 0) none [], .setGraphPositions 1 []]
    let s : GState Nat := run { numSamples := 1, numParams := 0, states := [], fixed := [] }
      [.set ['m'] ['a'] (.scalar 7) false, .set ['m'] ['b'] (.scalar 7) false,
       .set ['m'] ['z'] (.scalar 5) false, .set ['h'] ['z'] (.scalar 5) false]
    Heap.buildPytree H s 1 = .ok [(['m'], [(['a'], .scalar 7)]), (['h'], [(['z'], .scalar 5)])] := rfl

end LCL.GenerateProps
