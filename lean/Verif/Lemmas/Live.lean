import Verif.Lemmas.Fuel

/-!
# Sampling succeeds on graphs that have everything they need
-/

namespace LCL.NodeLemmas
open LCL LCL.NodeSpec LCL.GraphSpec LCL.GraphLemmas LCL.Heap
variable {α σ : Type}

theorem write_succeeds {r : Run α σ} (hw : WF r.gs) {n p : Name} {v : Val α} (hn : '.' ∉ n)
    (hp : '.' ∉ p) (hv : p ∈ fixedOf r.gs n ∨ ∃ w, storedAs r.gs.numSamples v w) :
    ∃ r', Heap.write r n p v = .ok r' := by
  have h := (set_error_iff r.gs hw n p v false).2 ⟨by
    rw [(hasDot_false_iff n).2 hn, (hasDot_false_iff p).2 hp]; rfl, by
    rcases hv with hv | ⟨w, hv⟩
    · exact Or.inl hv
    · exact Or.inr ⟨w, (normalise_ok_iff _ _ _).2 hv⟩⟩
  unfold Heap.write
  rcases he : r.gs.set n p v false with ⟨s, e⟩
  rw [he] at h; simp only at h; subst h
  exact ⟨_, rfl⟩

theorem constValue_storable (n : Nat) (v : Val α) : ∃ w, storedAs n (Heap.constValue n v) w := by
  unfold Heap.constValue
  by_cases h : n = 1
  · exact ⟨v, Or.inl ⟨h, by rw [if_pos h]⟩⟩
  · exact ⟨_, Or.inr ⟨h, List.replicate n v, rfl, by simp, Or.inl (by rw [if_neg h])⟩⟩

theorem look_storable {s : GState α} (hs : WF s) {n p : Name} {v : Val α} (h : look s n p = some v) :
    storedAs s.numSamples v v :=
  (normalise_ok_iff _ _ _).1 (normalise_stored s hs.toShape h)

theorem buildInputs_succeeds (nd : PNode α σ) (s : GState α) : ∀ (l : List Name) (a0 : Dict Name (Val α)),
    (∀ a ∈ l, ∃ v, look s nd.str a = some v) →
    ∃ args, l.foldlM (fun (args : Dict Name (Val α)) key => do
      match Dict.get? ([] : Dict Name (Val α)) key with
      | some v => return args.set key v
      | none => return args.set key (← Heap.lookParam s nd.str key)) a0 = .ok args := by
  intro l
  induction l with
  | nil => intro a0 _; exact ⟨a0, rfl⟩
  | cons a l ih =>
    intro a0 h
    obtain ⟨v, hv⟩ := h a (by simp)
    rw [List.foldlM_cons]
    simp only [Dict.get?_nil, bind, Except.bind, lookParam_of_look hv]
    exact ih _ (fun x hx => h x (List.mem_cons_of_mem _ hx))

theorem saveAll_succeeds (nd : PNode α σ) (hn : '.' ∉ nd.str) : ∀ (l : List (Name × Val α)) (r : Run α σ),
    WF r.gs → (∀ q ∈ l, '.' ∉ q.1 ∧ ∃ w, storedAs r.gs.numSamples q.2 w) →
    ∃ r', Heap.saveAll nd r l = .ok r' := by
  intro l
  induction l with
  | nil => intro r _ _; exact ⟨r, rfl⟩
  | cons q l ih =>
    intro r hw h
    obtain ⟨h1, h2⟩ := h q (by simp)
    obtain ⟨r1, hr1⟩ := write_succeeds hw hn h1 (Or.inr h2)
    obtain ⟨_, _, _, e4, e5, _⟩ := write_ok hw hr1
    unfold Heap.saveAll
    simp only [bind, Except.bind, hr1]
    exact ih r1 e5 (fun x hx => by rw [e4]; exact h x (List.mem_cons_of_mem _ hx))

theorem saveResults_succeeds {nd : PNode α σ} (hn : '.' ∉ nd.str) (hne : nd.outputs ≠ [])
    (hnd : nd.outputs.Nodup) {r : Run α σ} (hw : WF r.gs) {res : Val α} (hd : ∀ p ∈ nd.outputs, '.' ∉ p)
    (h : ∀ p ∈ nd.outputs, ∃ u v, OutputOf nd.outputs p res u ∧ storedAs r.gs.numSamples u v) :
    ∃ r', Heap.saveResults nd r res = .ok r' := by
  unfold Heap.saveResults
  split
  · rename_i o ho
    obtain ⟨u, v, h1, h2⟩ := h o (by rw [ho]; simp)
    rcases h1 with ⟨_, rfl⟩ | ⟨h1, _⟩
    · exact write_succeeds hw hn (hd o (by rw [ho]; simp)) (Or.inr ⟨v, h2⟩)
    · rw [ho] at h1; simp at h1
  · rename_i hno
    have hlen : nd.outputs.length ≠ 1 := by
      intro hl
      obtain ⟨o, ho⟩ := List.length_eq_one_iff.1 hl
      exact hno o ho
    obtain ⟨p, hp⟩ : ∃ p, p ∈ nd.outputs := by
      cases ho : nd.outputs with
      | nil => exact absurd ho hne
      | cons a l => exact ⟨a, by simp⟩
    obtain ⟨u, v, h1, _⟩ := h p hp
    rcases h1 with ⟨h1, _⟩ | ⟨_, rows, i, hr, hl, _⟩
    · rw [h1] at hlen; simp at hlen
    · subst hr
      simp only
      rw [if_neg (by simp [hl])]
      apply saveAll_succeeds nd hn _ _ hw
      intro q hq
      have hq1 : q.1 ∈ nd.outputs := (List.of_mem_zip hq).1
      refine ⟨hd _ hq1, ?_⟩
      obtain ⟨u', v', h1', h2'⟩ := h q.1 hq1
      rcases h1' with ⟨h1', _⟩ | ⟨_, rows', i', hr', hl', ho', hro'⟩
      · rw [h1'] at hlen; simp at hlen
      · cases hr'
        obtain ⟨k, hk, e⟩ := List.getElem_of_mem hq
        simp only [List.getElem_zip] at e
        have hk1 : k < nd.outputs.length := by simp at hk; omega
        have hk2 : k < rows.length := by simp at hk; omega
        have : i' = k := by
          obtain ⟨hi1, hi2⟩ := List.getElem?_eq_some_iff.1 ho'
          have : nd.outputs[i'] = nd.outputs[k] := by rw [hi2, ← e]
          exact (List.getElem_inj hnd).1 this
        subst this
        rw [List.getElem?_eq_getElem hk2] at hro'
        cases hro'
        rw [← e]; exact ⟨v', h2'⟩

/-- Everything stored as fixed is stored. -/
def FixedStored (r : Run α σ) : Prop := ∀ m p, p ∈ fixedOf r.gs m → ∃ v, look r.gs m p = some v

theorem FixedStored.mono {r r' : Run α σ} (h : FixedStored r) (hw : Weak r r') : FixedStored r' := by
  intro m p hp
  rw [hw.fixed] at hp
  obtain ⟨v, hv⟩ := h m p hp
  exact ⟨v, hw.look _ _ _ hv⟩

theorem EqL.stored {H : Heap α σ} {r : Run α σ} {id : NodeId} {nd : PNode α σ} {p : Name} {s : Src α}
    (h : EqL H r id nd p s) : ∃ v, look r.gs nd.str p = some v := by
  cases s with
  | undefined => exact absurd h (by simp [EqL])
  | const v => obtain ⟨w, h1, _⟩ := h; exact ⟨w, h1⟩
  | modelParam d q => obtain ⟨_, w, _, _, h1⟩ := h; exact ⟨w, h1⟩
  | funcNode d q => obtain ⟨_, w, _, _, h1⟩ := h; exact ⟨w, h1⟩
  | computeOut q => obtain ⟨_, _, _, w, _, _, _, _, h1⟩ := h; exact ⟨w, h1⟩

/-- The run just after marking a node as seen. -/
theorem start_loop {H : Heap α σ} {w0 : σ} {R : NodeId → Prop} {id : NodeId} {nd : PNode α σ}
    (hRid : R id) (hid : H[id]? = some nd) {r0 : Run α σ} (hinv : Inv H w0 R r0)
    (hseen : r0.seen.get? nd.str = none) :
    Weak r0 { r0 with seen := r0.seen.set nd.str id } ∧
    LInv H w0 R id nd { r0 with seen := r0.seen.set nd.str id } []
      { r0 with seen := r0.seen.set nd.str id } false := by
  let r1 : Run α σ := { r0 with seen := r0.seen.set nd.str id }
  have hw01 : Weak r0 r1 := by
    refine ⟨rfl, fun _ => rfl, fun _ _ _ h => h, ?_, [], by simp [r1]⟩
    intro n i hi
    simp only [r1, Dict.get?_set]
    split
    · rename_i e; subst e; rw [hseen] at hi; cases hi
    · exact hi
  have hinv1 : Inv H w0 R r1 := by
    refine ⟨hinv.wf, ?_, ?_, ?_, ?_, hinv.callsNodup, hinv.thread⟩
    · intro n i hi
      simp only [r1, Dict.get?_set] at hi
      split at hi
      · rename_i e; cases hi; subst e; exact ⟨nd, hid, rfl⟩
      · exact hinv.seenOK n i hi
    · intro n i hi
      simp only [r1, Dict.get?_set] at hi
      split at hi
      · cases hi; exact hRid
      · exact hinv.reach n i hi
    · intro n p v hl
      rcases hinv.stored n p v hl with e | ⟨i, nd', e1, e2⟩
      · exact Or.inl e
      · exact Or.inr ⟨i, nd', hw01.seen _ _ e1, e2⟩
    · intro c hc
      obtain ⟨nd', e1, e2, e3⟩ := hinv.callsOK c hc
      exact ⟨nd', e1, hw01.seen _ _ e2, e3⟩
  refine ⟨hw01, hinv1, Weak.refl _, ?_, fun c h => Or.inl h, fun _ _ _ _ _ => rfl, ?_, by simp, by simp, by simp, by simp⟩
  · intro n j h1 h2; rw [h1] at h2; cases h2
  · intro p hf _
    cases hl : look r1.gs nd.str p with
    | none => rfl
    | some v =>
      rcases hinv.stored nd.str p v hl with e | ⟨i, nd', e1, e2⟩
      · exact absurd e hf
      · rw [hseen] at e1; cases e1

/-- Sampling one node succeeds, by induction on its rank. -/
theorem sampleNode_live {H : Heap α σ} (hG : GraphOK H) {roots : List NodeId} {n : Nat}
    (hR : Runnable H roots n) (w0 : σ) (rank : NodeId → Nat)
    (hrank : ∀ a b, Reach H roots a → Reads H a b → rank b < rank a) :
    ∀ (fuel : Nat) (id : NodeId) (r : Run α σ), Reach H roots id → rank id < fuel →
      Inv H w0 (Reach H roots) r → r.gs.numSamples = n → FixedStored r →
      (∀ m j, r.seen.get? m = some j → NodeDone H r j ∨ rank id < rank j) →
      ∃ r', Heap.sampleNode H fuel id r = .ok r' := by
  have hlink : ∀ a b, Reads H a b → b < H.length := by
    rintro a b ⟨nd, p, st, h1, h2, h3⟩
    apply hG.links nd (List.mem_of_getElem? h1) (p, st) h2 b
    rcases h3 with ⟨q, h3⟩ | ⟨q, h3⟩ <;> simp only [h3] <;> rfl
  have hexist : ∀ a, Reach H roots a → ∃ na, H[a]? = some na := by
    intro a ha
    have : a < H.length := by
      cases ha with
      | root h => exact hR.rootsExist a h
      | step _ h => exact hlink _ _ h
    exact ⟨_, List.getElem?_eq_getElem this⟩
  have hRc : ∀ id nd, Reach H roots id → H[id]? = some nd → ∀ q ∈ nd.setters, ∀ d,
      q.2.src.dep = some d → Reads H id d := by
    intro id nd hr hid q hq d hd
    refine ⟨nd, q.1, q.2, hid, hq, ?_⟩
    cases hs : q.2.src with
    | modelParam d' q' => rw [hs] at hd; cases hd; exact Or.inl ⟨q', rfl⟩
    | funcNode d' q' => rw [hs] at hd; cases hd; exact Or.inr ⟨q', rfl⟩
    | undefined => rw [hs] at hd; cases hd
    | const v => rw [hs] at hd; cases hd
    | computeOut o => rw [hs] at hd; cases hd
  intro fuel
  induction fuel with
  | zero => intro id r _ h; omega
  | succ fuel ih =>
    intro id r0 hid0 hlt hinv hnum hfs hdone
    obtain ⟨nd, hid⟩ := hexist id hid0
    obtain ⟨hdot1, hdot2⟩ := hR.dots id nd hid0 hid
    have hmem : nd ∈ H := List.mem_of_getElem? hid
    have hspec : Spec H w0 (Reach H roots) (Heap.sampleNode H fuel) :=
      sampleNode_spec hG (fun id nd a b q hq d hd => Reach.step a (hRc id nd a b q hq d hd)) fuel
    unfold Heap.sampleNode
    simp only [hid]
    cases hseen : r0.seen.get? nd.str with
    | some j =>
      have : j = id := by
        obtain ⟨nj, e1, e2⟩ := hinv.seenOK _ _ hseen
        exact hR.names j id nj nd (hinv.reach _ _ hseen) hid0 e1 hid e2
      subst this
      exact ⟨r0, by simp⟩
    | none =>
      simp only [bind, Except.bind]
      let r1 : Run α σ := { r0 with seen := r0.seen.set nd.str id }
      have hs1 : r1.seen.get? nd.str = some id := by simp [r1]
      obtain ⟨hw01, hl0⟩ := start_loop hid0 hid hinv hseen
      have hRd : ∀ q ∈ nd.setters, ∀ d, q.2.src.dep = some d → Reach H roots d :=
        fun q hq d hd => Reach.step hid0 (hRc id nd hid0 hid q hq d hd)
      -- seen nodes inside the loop are finished or of larger rank than a dependency
      have hstat : ∀ (done : List (Name × Setter α)) (r : Run α σ) (any : Bool),
          LInv H w0 (Reach H roots) id nd r1 done r any → ∀ m j, r.seen.get? m = some j →
          NodeDone H r j ∨ rank id ≤ rank j := by
        intro done r any hL m j hm
        cases h1 : r1.seen.get? m with
        | none => exact Or.inl (hL.fin m j hm h1)
        | some j' =>
          have := hL.weak.seen m j' h1
          rw [hm] at this; cases this
          simp only [r1, Dict.get?_set] at h1
          split at h1
          · cases h1; right; exact Nat.le_refl _
          · rcases hdone m j h1 with h | h
            · exact Or.inl (h.mono (hw01.trans hL.weak))
            · right; exact Nat.le_of_lt h
      -- one step of the loop succeeds
      have hstep : ∀ (done : List (Name × Setter α)) (r : Run α σ) (any : Bool) (q : Name × Setter α),
          LInv H w0 (Reach H roots) id nd r1 done r any → q ∈ nd.setters →
          ∃ res, Heap.stepSetter H (Heap.sampleNode H fuel) id nd (r, any) q = .ok res := by
        intro done r any q hL hq
        have hqd : '.' ∉ q.1 := hdot2 q.1 (List.mem_map.2 ⟨q, hq, rfl⟩)
        -- the dependency
        have hvisit : ∃ r', Heap.visitDep (Heap.sampleNode H fuel) id q.2.src r = .ok r' ∧
            LInv H w0 (Reach H roots) id nd r1 done r' any ∧
            (∀ d, q.2.src.dep = some d → ∃ dn, H[d]? = some dn ∧ r'.seen.get? dn.str = some d) := by
          unfold Heap.visitDep
          cases hd : q.2.src.dep with
          | none => exact ⟨r, rfl, hL, by simp⟩
          | some d =>
            have hrd := hrank id d hid0 (hRc id nd hid0 hid q hq d hd)
            have hne : d ≠ id := by rintro rfl; omega
            simp only [hne, ne_eq, not_false_eq_true, if_true]
            obtain ⟨r', hr'⟩ := ih d r (hRd q hq d hd) (by omega) hL.inv
              (by rw [hL.weak.num]; exact hnum) (hfs.mono (hw01.trans hL.weak))
              (fun m j hm => (hstat done r any hL m j hm).imp (fun h => h) (fun h => Nat.lt_of_lt_of_le hrd h))
            obtain ⟨g1, g2⟩ := step_rec hspec hs1 hL d (hRd q hq d hd) hr'
            exact ⟨r', hr', g1, fun d' hd' => by cases hd'; exact g2⟩
        obtain ⟨r', hr', hL', hdep⟩ := hvisit
        unfold Heap.stepSetter
        simp only [bind, Except.bind, hr']
        have hnum' : r'.gs.numSamples = n := by rw [hL'.weak.num]; exact hnum
        have hlinked : ∀ d x, (q.2.src = .modelParam d x ∨ q.2.src = .funcNode d x) →
            ∃ dn, H[d]? = some dn ∧ ∃ v, Heap.lookParam r'.gs dn.str x = .ok v ∧
              ∃ r'', Heap.write r' nd.str q.1 v = .ok r'' := by
          intro d x hsrc
          have hdd : q.2.src.dep = some d := by rcases hsrc with h | h <;> rw [h] <;> rfl
          obtain ⟨dn, e1, e2⟩ := hdep d hdd
          obtain ⟨dn', e3, e4⟩ := hR.targets id nd hid0 hid q hq d x hsrc
          rw [e1] at e3; cases e3
          have hrd := hrank id d hid0 (hRc id nd hid0 hid q hq d hdd)
          have hdn : NodeDone H r' d := by
            rcases hstat done r' any hL' _ _ e2 with h | h
            · exact h
            · omega
          obtain ⟨nd2, f1, f2, _⟩ := hdn
          rw [e1] at f1; cases f1
          have hst : ∃ v, look r'.gs dn.str x = some v := by
            obtain ⟨qq, hqq, hqe⟩ := List.mem_map.1 e4
            rcases f2 qq hqq with h | h
            · rw [hqe] at h; exact (hfs.mono (hw01.trans hL'.weak)) _ _ h
            · rw [hqe] at h; exact h.stored
          obtain ⟨v, hv⟩ := hst
          exact ⟨dn, e1, v, lookParam_of_look hv,
            write_succeeds hL'.inv.wf hdot1 hqd (Or.inr ⟨v, look_storable hL'.inv.wf hv⟩)⟩
        cases hsrc : q.2.src with
        | undefined => exact absurd hsrc (hR.defined id nd hid0 hid q hq)
        | const v =>
          obtain ⟨r'', h''⟩ := write_succeeds (v := Heap.constValue r'.gs.numSamples v) hL'.inv.wf hdot1 hqd (Or.inr (constValue_storable r'.gs.numSamples v))
          simp only [h'']; exact ⟨_, rfl⟩
        | modelParam d x =>
          obtain ⟨dn, e1, v, e2, r'', e3⟩ := hlinked d x (Or.inl hsrc)
          simp only [e1, e2, e3]; exact ⟨_, rfl⟩
        | funcNode d x =>
          obtain ⟨dn, e1, v, e2, r'', e3⟩ := hlinked d x (Or.inr hsrc)
          simp only [e1, e2, e3]; exact ⟨_, rfl⟩
        | computeOut o => exact ⟨_, rfl⟩
      -- the whole loop
      have hloop : ∀ (rest done : List (Name × Setter α)) (r : Run α σ) (any : Bool),
          done ++ rest = nd.setters → LInv H w0 (Reach H roots) id nd r1 done r any →
          ∃ res, rest.foldlM (Heap.stepSetter H (Heap.sampleNode H fuel) id nd) (r, any) = .ok res := by
        intro rest
        induction rest with
        | nil => intro done r any _ _; exact ⟨_, rfl⟩
        | cons q rest ihr =>
          intro done r any e hL
          have hq : q ∈ nd.setters := by rw [← e]; simp
          have hqn : ∀ x ∈ done, x.1 ≠ q.1 := by
            intro x hx heq
            have : (done.map (·.1) ++ q.1 :: rest.map (·.1)).Nodup := by
              have h2 := hG.keys nd hmem
              rw [← e] at h2
              simpa [Dict.keys] using h2
            rw [List.nodup_append] at this
            exact this.2.2 x.1 (List.mem_map.2 ⟨x, hx, rfl⟩) q.1 (by simp) heq
          obtain ⟨res1, h1⟩ := hstep done r any q hL hq
          rw [List.foldlM_cons, h1]
          exact ihr (done ++ [q]) res1.1 res1.2 (by rw [← e]; simp)
            (step_setter hspec hid hRd hs1 q hq hqn hL res1 h1)
      obtain ⟨res, hres⟩ := hloop nd.setters [] r1 false (by simp) hl0
      have hL := loop_setters hspec hid hRd (hG.keys nd hmem) hs1 nd.setters [] r1 false res (by simp) hl0 hres
      simp only [r1] at hres
      simp only [hres]
      obtain ⟨r, any⟩ := res
      simp only at hL ⊢
      cases hany : any with
      | false => exact ⟨r, rfl⟩
      | true =>
        subst hany
        simp only [if_true]
        have hout : nd.outputs ≠ [] := by
          obtain ⟨q, hq, o, ho⟩ := hL.any.1 rfl
          intro he
          have := (hG.outs nd hmem q.1).2 ⟨q.2, o, hq, ho⟩
          rw [he] at this; simp at this
        have hfun : nd.isFunc = true := by
          cases hf : nd.isFunc with
          | true => rfl
          | false => exact absurd (hG.plain nd hmem hf) hout
        obtain ⟨f, hf1, hf2⟩ := hR.bodies id nd hid0 hid hout
        have hnum' : r.gs.numSamples = n := by rw [hL.weak.num]; exact hnum
        unfold Heap.compute
        simp only [hfun, if_true, hf1, bind, Except.bind]
        have hargs : ∀ a ∈ nd.argNames, ∃ v, look r.gs nd.str a = some v := by
          intro a ha
          obtain ⟨q, hq, rfl⟩ := List.mem_map.1 (hR.args id nd hid0 hid a ha)
          rcases hL.eqs q hq with h | ⟨o, h⟩ | h
          · exact (hfs.mono (hw01.trans hL.weak)) _ _ h
          · exact absurd ((hG.outs nd hmem q.1).2 ⟨q.2, o, hq, h⟩) (hG.args nd hmem q.1 ha)
          · exact h.stored
        obtain ⟨args, hb⟩ := buildInputs_succeeds nd r.gs nd.argNames [] hargs
        have hb : Heap.buildInputs nd r.gs [] = .ok args := hb
        obtain ⟨w', res, hfw, hst⟩ := hf2 r.world args (fun a ha => by
          obtain ⟨v, _, h2⟩ := (buildInputs_ok hb).1 a ha
          exact ⟨v, h2⟩)
        rw [← hnum'] at hfw hst
        simp only [hb, hfw]
        apply saveResults_succeeds (r := { r with world := w', calls := r.calls ++ [(id, args, res)] }) hdot1 hout (hG.outsNodup nd hmem) hL.inv.wf
        · intro p hp
          obtain ⟨st, q, hm, _⟩ := (hG.outs nd hmem p).1 hp
          exact hdot2 p (List.mem_map.2 ⟨_, hm, rfl⟩)
        · exact hst

end LCL.NodeLemmas
