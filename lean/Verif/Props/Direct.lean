import Verif.Spec.Direct
import Verif.Props.ConstGraph
import Verif.Props.Bandfluxes

/-!
# C137: a model asked directly answers sample by sample

`evaluate_sed` and `evaluate_bandfluxes` on a `GraphState` of any number of samples, and without one.
-/

namespace LCL.DirectProps
open LCL LCL.Direct LCL.DirectSpec LCL.GraphLemmas LCL.FullRun LCL.FullRunSpec LCL.PhysSpec
variable {V A σ β : Type}

theorem eachSample_iff (f : SState ℝ → σ → Except Err (β × σ)) : ∀ (states : List (SState ℝ)) (w : σ) (l : List β) (w' : σ),
    eachSample f states w = .ok (l, w') ↔ l.length = states.length ∧ ∃ world : Nat → σ, world 0 = w ∧ world states.length = w' ∧
      ∀ (k : Nat) st, states[k]? = some st → ∃ a, l[k]? = some a ∧ f st (world k) = .ok (a, world (k + 1))
  | [], w, l, w' => by
    simp only [eachSample, Except.ok.injEq, Prod.mk.injEq, List.length_nil, List.length_eq_zero_iff]
    constructor
    · rintro ⟨rfl, rfl⟩
      exact ⟨rfl, fun _ => w, rfl, rfl, fun k st h => by simp at h⟩
    · rintro ⟨rfl, world, h0, h1, -⟩
      exact ⟨rfl, h0.symm.trans h1⟩
  | st :: sts, w, l, w' => by
    simp only [eachSample]
    constructor
    · intro h
      split at h
      · cases h
      · rename_i a w1 ha
        split at h
        · cases h
        · rename_i rest w2 hrest
          obtain ⟨hl, world, h0, h1, hk⟩ := (eachSample_iff f sts w1 rest w2).1 hrest
          simp only [Except.ok.injEq, Prod.mk.injEq] at h
          obtain ⟨rfl, rfl⟩ := h
          refine ⟨by simp [hl], fun k => match k with | 0 => w | k + 1 => world k, rfl, h1, ?_⟩
          intro k st' hst
          cases k with
          | zero =>
            simp only [List.getElem?_cons_zero, Option.some.injEq] at hst
            subst hst
            exact ⟨a, rfl, by rw [ha, ← h0]⟩
          | succ k =>
            rw [List.getElem?_cons_succ] at hst ⊢
            exact hk k st' hst
    · rintro ⟨hl, world, h0, h1, hk⟩
      obtain ⟨a, hla, hf⟩ := hk 0 st rfl
      cases l with
      | nil => cases hla
      | cons b rest =>
        simp only [List.getElem?_cons_zero, Option.some.injEq] at hla
        subst hla
        have := (eachSample_iff f sts (world 1) rest w').2 ⟨by simpa using hl, fun k => world (k + 1), rfl, h1, fun k st' hst => hk (k + 1) st' hst⟩
        rw [← h0, hf]
        dsimp only
        rw [this]

theorem sampleOf_single {gs : GState ℝ} (h : gs.numSamples = 1) (k : Nat) : (sampleOf gs k).states = gs.states := by
  unfold sampleOf
  simp [h]

theorem mapM_iff {γ δ : Type} (f : γ → Except Err δ) : ∀ (l : List γ) (out : List δ), l.mapM f = .ok out ↔
    out.length = l.length ∧ ∀ (k : Nat) x, l[k]? = some x → ∃ y, out[k]? = some y ∧ f x = .ok y
  | [], out => by
    simp only [List.mapM_nil, List.length_nil, List.length_eq_zero_iff]
    constructor
    · intro h; cases h; exact ⟨rfl, fun k x h => by simp at h⟩
    · rintro ⟨rfl, -⟩; rfl
  | x :: xs, out => by
    rw [List.mapM_cons]
    constructor
    · intro h
      cases hx : f x with
      | error e => rw [hx] at h; cases h
      | ok y =>
        rw [hx] at h
        cases hr : xs.mapM f with
        | error e => rw [hr] at h; cases h
        | ok ys =>
          rw [hr] at h
          cases h
          obtain ⟨h1, h2⟩ := (mapM_iff f xs ys).1 hr
          refine ⟨by simp [h1], ?_⟩
          intro k z hz
          cases k with
          | zero => simp only [List.getElem?_cons_zero, Option.some.injEq] at hz; subst hz; exact ⟨y, rfl, hx⟩
          | succ k => exact h2 k z hz
    · rintro ⟨h1, h2⟩
      obtain ⟨y, hy, hf⟩ := h2 0 x rfl
      cases out with
      | nil => cases hy
      | cons b ys =>
        simp only [List.getElem?_cons_zero, Option.some.injEq] at hy
        subst hy
        rw [hf, (mapM_iff f xs ys).2 ⟨by simpa using h1, fun k z hz => h2 (k + 1) z hz⟩]
        rfl

theorem eachState_iff (f : SState ℝ → σ → Except Err (β × σ)) {gs : GState ℝ} (hs : Shape gs) (w : σ) (out : Stack β) (w' : σ) :
    eachState f gs w = .ok (out, w') ↔ For gs.numSamples out ∧ ∃ world : Nat → σ, world 0 = w ∧ world gs.numSamples = w' ∧
      ∀ k < gs.numSamples, ∃ st a, sstateOf (sampleOf gs k).states = .ok st ∧ part out k = some a ∧ f st (world k) = .ok (a, world (k + 1)) := by
  unfold eachState
  by_cases h1 : gs.numSamples = 1
  · rw [if_pos h1, h1]
    constructor
    · intro h
      split at h
      · cases h
      · rename_i st hst
        split at h
        · cases h
        · rename_i a w1 ha
          simp only [Except.ok.injEq, Prod.mk.injEq] at h
          obtain ⟨rfl, rfl⟩ := h
          refine ⟨rfl, fun k => if k = 0 then w else w1, rfl, rfl, ?_⟩
          intro k hk
          obtain rfl : k = 0 := by omega
          exact ⟨st, a, by rw [sampleOf_single h1]; exact hst, rfl, ha⟩
    · rintro ⟨hf, world, h0, hw', hk⟩
      obtain ⟨st, a, hst, hp, ha⟩ := hk 0 (by omega)
      rw [sampleOf_single h1] at hst
      rw [hst]
      dsimp only
      rw [← h0, ha]
      cases out with
      | one b =>
        simp only [part, if_true, Option.some.injEq] at hp
        subst hp
        dsimp only
        rw [← hw']
      | many l => exact absurd rfl hf.1
  · rw [if_neg h1, iterate_ok gs hs]
    dsimp only
    constructor
    · intro h
      split at h
      · cases h
      · rename_i states hst
        obtain ⟨hsl, hsk⟩ := (mapM_iff _ _ _).1 hst
        simp only [List.length_map, List.length_range] at hsl
        split at h
        · cases h
        · rename_i l w1 hl
          simp only [Except.ok.injEq, Prod.mk.injEq] at h
          obtain ⟨rfl, rfl⟩ := h
          obtain ⟨hll, world, h0, hw', hk⟩ := (eachSample_iff f states w l w1).1 hl
          rw [hsl] at hll hw'
          refine ⟨⟨h1, hll⟩, world, h0, hw', ?_⟩
          intro k hkn
          obtain ⟨st, hst', hss⟩ := hsk k (sampleOf gs k) (by simp [hkn])
          obtain ⟨a, ha, hf⟩ := hk k st hst'
          exact ⟨st, a, hss, ha, hf⟩
    · rintro ⟨hf, world, h0, hw', hk⟩
      cases out with
      | one a => exact absurd hf h1
      | many l =>
        have hex : ∃ states, ((List.range gs.numSamples).map (sampleOf gs)).mapM (fun g => sstateOf g.states) = .ok states := by
          refine FullRunProps.mapM_ok _ _ ?_
          intro g hg
          obtain ⟨k, hk', rfl⟩ := List.mem_map.1 hg
          obtain ⟨st, a, hst, -⟩ := hk k (List.mem_range.1 hk')
          exact ⟨st, hst⟩
        obtain ⟨states, hst⟩ := hex
        rw [hst]
        dsimp only
        obtain ⟨hsl, hsk⟩ := (mapM_iff _ _ _).1 hst
        simp only [List.length_map, List.length_range] at hsl
        rw [(eachSample_iff f states w l w').2 ⟨hf.2.trans hsl.symm, world, h0, by rw [hsl]; exact hw', ?_⟩]
        intro k st hst'
        have hkn : k < gs.numSamples := by rw [← hsl]; exact (List.getElem?_eq_some_iff.1 hst').1
        obtain ⟨st2, a, h2, hp, ha⟩ := hk k hkn
        obtain ⟨st3, h3, h4⟩ := hsk k (sampleOf gs k) (by simp [hkn])
        rw [hst'] at h3
        cases h3
        rw [h2] at h4
        cases h4
        exact ⟨a, hp, ha⟩

theorem sampleOf_numSamples (gs : GState ℝ) (k : Nat) : (sampleOf gs k).numSamples = 1 := rfl

/-- Asking for one sample. -/
theorem eachState_sample (f : SState ℝ → σ → Except Err (β × σ)) (gs : GState ℝ) (k : Nat) (w w' : σ) (a : β) :
    eachState f (sampleOf gs k) w = .ok (.one a, w') ↔ ∃ st, sstateOf (sampleOf gs k).states = .ok st ∧ f st w = .ok (a, w') := by
  unfold eachState
  rw [if_pos (sampleOf_numSamples gs k)]
  constructor
  · intro h
    split at h
    · cases h
    · rename_i st hst
      split at h
      · cases h
      · rename_i b w1 hb
        simp only [Except.ok.injEq, Prod.mk.injEq, Stack.one.injEq] at h
        obtain ⟨rfl, rfl⟩ := h
        exact ⟨st, hst, hb⟩
  · rintro ⟨st, hst, hf⟩
    rw [hst]
    dsimp only
    rw [hf]

theorem eachState_bySample (f : SState ℝ → σ → Except Err (β × σ)) {gs : GState ℝ} (hs : Shape gs) (H : Heap ℝ σ) (w : σ) (out : Stack β) (w' : σ)
    (ask : GState ℝ → σ → Except Err (Heap ℝ σ × Stack β × σ))
    (hask : ∀ g w1 o w2, ask g w1 = .ok (H, o, w2) ↔ eachState f g w1 = .ok (o, w2)) :
    eachState f gs w = .ok (out, w') ↔ SampleBySample ask gs H w out w' := by
  rw [eachState_iff f hs]
  unfold SampleBySample
  refine and_congr_right fun _ => exists_congr fun world => and_congr_right fun _ => and_congr_right fun _ => forall_congr' fun k => forall_congr' fun hk => ?_
  constructor
  · rintro ⟨st, a, h1, h2, h3⟩
    exact ⟨_, a, extractSample_ok gs hs k hk, h2, (hask _ _ _ _).2 ((eachState_sample f gs k _ _ a).2 ⟨st, h1, h3⟩)⟩
  · rintro ⟨gk, a, h1, h2, h3⟩
    rw [extractSample_ok gs hs k hk] at h1
    cases h1
    obtain ⟨st, h4, h5⟩ := (eachState_sample f gs k _ _ a).1 ((hask _ _ _ _).1 h3)
    exact ⟨st, a, h4, h2, h5⟩

theorem sed_iff (m : SEDModel V (Dict Name A) σ ℝ) {H : Heap ℝ σ} {root : NodeId} {nd : PNode ℝ σ} (hnd : H[root]? = some nd) (times waves : List ℝ)
    (given : Option (GState.UpdateArg ℝ)) (kw : Dict Name A) (gs : GState ℝ) (w : σ) (H' : Heap ℝ σ) (out : Stack (Mat ℝ)) (w' : σ) :
    askSed m H root times waves (some gs) given kw w = .ok (H', out, w') ↔
      H' = H ∧ eachState (fun st w => { m with nodeString := nd.str }.evaluateSingle [] times waves st w kw) gs w = .ok (out, w') := by
  unfold askSed stateFor
  dsimp only
  rw [hnd]
  dsimp only
  cases eachState (fun st w => { m with nodeString := nd.str }.evaluateSingle [] times waves st w kw) gs w with
  | error e => simp
  | ok q => obtain ⟨a, b⟩ := q; simp only [Except.ok.injEq, Prod.mk.injEq]; constructor
            · rintro ⟨h1, h2, h3⟩; exact ⟨h1.symm, h2, h3⟩
            · rintro ⟨h1, h2, h3⟩; exact ⟨h1.symm, h2, h3⟩

/-- C137: for every model, graph, times, wavelengths, keywords and sampled state (of any number of samples), evaluate_sed succeeds exactly when the requests for the
samples, one after the other, do; its answer is one array for one sample and otherwise the stack of them, entry k being the answer to the request for
extract_single_sample(k), asked in the world (random generators) which the request for sample k - 1 left; the graph is not changed. -/
theorem C137_sed (m : SEDModel V (Dict Name A) σ ℝ) {H : Heap ℝ σ} {root : NodeId} (hroot : root < H.length) (times waves : List ℝ)
    (given : Option (GState.UpdateArg ℝ)) (kw : Dict Name A) {gs : GState ℝ} (hs : Shape gs) (w : σ) (H' : Heap ℝ σ) (out : Stack (Mat ℝ)) (w' : σ) :
    askSed m H root times waves (some gs) given kw w = .ok (H', out, w') ↔
      H' = H ∧ SampleBySample (fun g => askSed m H root times waves (some g) given kw) gs H w out w' := by
  obtain ⟨nd, hnd⟩ : ∃ nd, H[root]? = some nd := ⟨_, List.getElem?_eq_getElem hroot⟩
  rw [sed_iff m hnd]
  refine and_congr_right fun _ => eachState_bySample _ hs H w out w' _ ?_
  intro g w1 o w2
  rw [sed_iff m hnd]
  exact ⟨fun h => h.2, fun h => ⟨rfl, h⟩⟩

theorem band_iff (m : SEDModel V (Dict Name A) σ ℝ) {H : Heap ℝ σ} {root : NodeId} {nd : PNode ℝ σ} (hnd : H[root]? = some nd) (arg : BandArg ℝ) (times : List ℝ)
    (filters : Option (List Name)) (gs : GState ℝ) (w : σ) (H' : Heap ℝ σ) (out : Stack (List ℝ)) (w' : σ) :
    askBandfluxes m H root arg times filters (some gs) w = .ok (H', out, w') ↔
      H' = H ∧ ∃ g fs, arg.resolve times.length filters = .ok (g, fs) ∧ fs.length = times.length ∧
        eachState (fun st w => { m with nodeString := nd.str }.evaluateBandfluxesSingle [] g times fs st w) gs w = .ok (out, w') := by
  unfold askBandfluxes stateFor
  dsimp only
  rw [hnd]
  dsimp only
  cases arg.resolve times.length filters with
  | error e => simp
  | ok q =>
    obtain ⟨g, fs⟩ := q
    dsimp only
    by_cases hl : fs.length = times.length
    · rw [if_neg (by simpa using hl)]
      cases he : eachState (fun st w => { m with nodeString := nd.str }.evaluateBandfluxesSingle [] g times fs st w) gs w with
      | error e =>
        simp only [reduceCtorEq, false_iff]
        rintro ⟨-, g', fs', e', -, h'⟩
        cases e'
        rw [he] at h'; cases h'
      | ok q =>
        obtain ⟨a, b⟩ := q
        simp only [Except.ok.injEq, Prod.mk.injEq]
        constructor
        · rintro ⟨h1, h2, h3⟩; exact ⟨h1.symm, g, fs, ⟨rfl, rfl⟩, hl, by rw [he, h2, h3]⟩
        · rintro ⟨h1, g', fs', ⟨rfl, rfl⟩, -, h'⟩
          rw [he] at h'
          simp only [Except.ok.injEq, Prod.mk.injEq] at h'
          exact ⟨h1.symm, h'.1, h'.2⟩
    · rw [if_pos (by simpa using hl)]
      simp only [reduceCtorEq, false_iff]
      rintro ⟨-, g', fs', e', h', -⟩
      cases e'
      exact hl h'

/-- C137: and so does evaluate_bandfluxes, of a passband or of a group of them. -/
theorem C137_bandfluxes (m : SEDModel V (Dict Name A) σ ℝ) {H : Heap ℝ σ} {root : NodeId} (hroot : root < H.length) (arg : BandArg ℝ) (times : List ℝ)
    (filters : Option (List Name)) {gs : GState ℝ} (hs : Shape gs) (w : σ) (H' : Heap ℝ σ) (out : Stack (List ℝ)) (w' : σ) :
    askBandfluxes m H root arg times filters (some gs) w = .ok (H', out, w') ↔
      H' = H ∧ SampleBySample (fun g => askBandfluxes m H root arg times filters (some g)) gs H w out w' := by
  obtain ⟨nd, hnd⟩ : ∃ nd, H[root]? = some nd := ⟨_, List.getElem?_eq_getElem hroot⟩
  rw [band_iff m hnd]
  refine and_congr_right fun _ => ?_
  constructor
  · rintro ⟨g, fs, hr, hl, he⟩
    refine (eachState_bySample _ hs H w out w' _ ?_).1 he
    intro g' w1 o w2
    rw [band_iff m hnd]
    constructor
    · rintro ⟨-, g2, fs2, e2, -, h2⟩
      rw [hr] at e2; cases e2
      exact h2
    · intro h; exact ⟨rfl, g, fs, hr, hl, h⟩
  · rintro h
    obtain ⟨gk, a, -, -, hk⟩ := h.2.choose_spec.2.2 0 hs.pos
    obtain ⟨-, g, fs, hr, hl, -⟩ := (band_iff m hnd _ _ _ _ _ _ _ _).1 hk
    refine ⟨g, fs, hr, hl, (eachState_bySample _ hs H w out w' _ ?_).2 h⟩
    intro g' w1 o w2
    rw [band_iff m hnd]
    constructor
    · rintro ⟨-, g2, fs2, e2, -, h2⟩
      rw [hr] at e2; cases e2
      exact h2
    · intro h; exact ⟨rfl, g, fs, hr, hl, h⟩

/-- C137: without a state, evaluate_sed samples the graph once (one sample, with the given values) and answers for the state so sampled, in the world sampling left; the
answer is one array. -/
theorem C137_fresh (m : SEDModel V (Dict Name A) σ ℝ) {H : Heap ℝ σ} (hG : NodeSpec.GraphOK H) {root : NodeId} (times waves : List ℝ) (w : σ) (H' : Heap ℝ σ)
    (out : Stack (Mat ℝ)) (w' : σ) :
    askSed m H root times waves none none [] w = .ok (H', out, w') ↔
      ∃ run, Heap.sampleParameters H root [] none 1 w = .ok (H', run) ∧ run.gs.numSamples = 1 ∧ GraphLemmas.Shape run.gs ∧
        askSed m H' root times waves (some run.gs) none [] run.world = .ok (H', out, w') ∧ ∃ a, out = .one a := by
  have key : ∀ H1 run, Heap.sampleParameters H root [] none 1 w = .ok (H1, run) → run.gs.numSamples = 1 ∧ GraphLemmas.Shape run.gs := by
    intro H1 run h
    obtain ⟨hG', hsf, -⟩ := FullRunProps.sampleFrom_of hG h
    refine ⟨?_, (NodeProps.sampleFrom_all hG' (given := none) trivial hsf).1.wf.toShape⟩
    have := (NodeProps.C14_complete hG' (given := none) trivial hsf).1
    omega
  constructor
  · intro h
    unfold askSed stateFor at h
    dsimp only at h
    rw [if_pos (show ([] : Dict Name A).isEmpty = true from rfl)] at h
    cases hr : Heap.sampleParameters H root [] none 1 w with
    | error e => rw [hr] at h; cases h
    | ok q =>
      obtain ⟨H1, run⟩ := q
      rw [hr] at h
      dsimp only at h
      obtain ⟨h1, h2⟩ := key H1 run hr
      cases hn : H1[root]? with
      | none => rw [hn] at h; cases h
      | some nd =>
        rw [hn] at h
        dsimp only at h
        cases he : eachState (fun st w => { m with nodeString := nd.str }.evaluateSingle [] times waves st w []) run.gs run.world with
        | error e => rw [he] at h; cases h
        | ok q =>
          obtain ⟨o, w2⟩ := q
          rw [he] at h
          simp only [Except.ok.injEq, Prod.mk.injEq] at h
          obtain ⟨rfl, rfl, rfl⟩ := h
          refine ⟨run, rfl, h1, h2, (sed_iff m hn times waves none [] run.gs run.world _ _ _).2 ⟨rfl, he⟩, ?_⟩
          have hf := ((eachState_iff _ h2 _ _ _).1 he).1
          cases o with
          | one a => exact ⟨a, rfl⟩
          | many l => exact absurd h1 hf.1
  · rintro ⟨run, hr, -, -, h, -⟩
    unfold askSed stateFor at h ⊢
    dsimp only at h ⊢
    rw [if_pos (show ([] : Dict Name A).isEmpty = true from rfl), hr]
    exact h

/-- C137: the same of evaluate_bandfluxes. -/
theorem C137_fresh_bandfluxes (m : SEDModel V (Dict Name A) σ ℝ) (H : Heap ℝ σ) (root : NodeId) (arg : BandArg ℝ) (times : List ℝ)
    (filters : Option (List Name)) (w : σ) (H' : Heap ℝ σ) (out : Stack (List ℝ)) (w' : σ) :
    askBandfluxes m H root arg times filters none w = .ok (H', out, w') ↔
      ∃ run, Heap.sampleParameters H root [] none 1 w = .ok (H', run) ∧ askBandfluxes m H' root arg times filters (some run.gs) run.world = .ok (H', out, w') := by
  unfold askBandfluxes stateFor
  dsimp only
  rw [if_pos (show ([] : Dict Name A).isEmpty = true from rfl)]
  cases hr : Heap.sampleParameters H root [] none 1 w with
  | error e => simp
  | ok q =>
    obtain ⟨H1, run⟩ := q
    dsimp only
    constructor
    · intro h
      have hH : H1 = H' := by
        split at h
        · cases h
        · split at h
          · cases h
          · split at h
            · cases h
            · split at h
              · cases h
              · simp only [Except.ok.injEq, Prod.mk.injEq] at h; exact h.1
      subst hH
      exact ⟨run, rfl, h⟩
    · rintro ⟨run', e, h⟩
      cases e
      exact h

/-- Every sample of the state can be read by the models (numbers or None). -/
def Readable (gs : GState ℝ) : Prop :=
  ∀ k < gs.numSamples, ∀ node param v, sampleValue gs node param k = some v → ∃ x, asParam v = some x

theorem readable_state {gs : GState ℝ} (hs : GraphLemmas.Shape gs) (hr : Readable gs) {k : Nat} (hk : k < gs.numSamples) :
    ∃ st, sstateOf (sampleOf gs k).states = .ok st := by
  refine FullRunProps.sstateOf_ok _ ?_
  intro q hq r hq'
  have hsh := sampleOf_shape gs hs k
  refine hr k hk q.1 r.1 r.2 ?_
  rw [FullRunProps.sampleValue_look hs hk]
  unfold look
  have h1 := Dict.get?_of_mem hsh.nodes (show (q.1, q.2) ∈ (sampleOf gs k).states from hq)
  rw [h1]
  exact Dict.get?_of_mem (hsh.vars _ _ h1) (show (r.1, r.2) ∈ q.2 from hq')

theorem stateOf {gs : GState ℝ} (hs : GraphLemmas.Shape gs) {k : Nat} (hk : k < gs.numSamples) {st : SState ℝ} (h : sstateOf (sampleOf gs k).states = .ok st) :
    StateOf gs k st := by
  intro node param
  rw [(FullRunProps.sstate_get _ h node param).1, FullRunProps.sampleValue_look hs hk]
  rfl

/-- C137, the values. Let the spectrum of the model be computed time by time and wavelength by wavelength (`F st` for the parameters `st`, `G` the extrapolation) and
let it have no effects. Then evaluate_sed succeeds on every state in which each sample has a redshift z (and a t0, unless z = 0), leaves the world as it was, and entry
k of the answer is the redshifted spectrum of the model with the parameters, the redshift and the t0 of sample k. -/
theorem C137_value (m : SEDModel V (Dict Name A) σ ℝ) (hm : m.restEffects = [] ∧ m.obsEffects = []) (happ : m.applyRedshift = true)
    {H : Heap ℝ σ} {root : NodeId} {nd : PNode ℝ σ} (hnd : H[root]? = some nd) (times waves : List ℝ) (hne : waves ≠ [])
    (given : Option (GState.UpdateArg ℝ)) (kw : Dict Name A) {gs : GState ℝ} (hs : GraphLemmas.Shape gs) (hr : Readable gs) (w : σ)
    (F : SState ℝ → ℝ → ℝ → ℝ) (G : ℝ → ℝ → ℝ → ℝ) (hF : ∀ st, Pointwise m st (F st))
    (hG : (m.extrap = none ∧ G = fun _ _ _ => 0) ∨ ∃ ex, m.extrap = some ex ∧ PointwiseExt ex G)
    (hle : ∀ st l h, m.minwave st = some l → m.maxwave st = some h → l ≤ h) (z t0 : Nat → ℝ)
    (hz : ∀ k < gs.numSamples, sampleValue gs nd.str redshiftKey k = some (.scalar (z k)) ∧ z k ≠ -1 ∧
      (z k ≠ 0 → sampleValue gs nd.str t0Key k = some (.scalar (t0 k)))) :
    ∃ out, askSed m H root times waves (some gs) given kw w = .ok (H, out, w) ∧ For gs.numSamples out ∧
      ∀ k < gs.numSamples, ∃ st, StateOf gs k st ∧ part out k = some (times.map fun t => waves.map fun l =>
        (1 + z k) * stretch (m.minwave st) (m.maxwave st) (F st (t0 k + (t - t0 k) / (1 + z k))) G (l / (1 + z k))) := by
  have hst : ∀ k, ∃ st, k < gs.numSamples → sstateOf (sampleOf gs k).states = .ok st := by
    intro k
    by_cases hk : k < gs.numSamples
    · obtain ⟨st, h⟩ := readable_state hs hr hk; exact ⟨st, fun _ => h⟩
    · exact ⟨[], fun h => absurd h hk⟩
  choose st hst using hst
  have hev : ∀ k < gs.numSamples, { m with nodeString := nd.str }.evaluateSingle [] times waves (st k) w kw =
      .ok (times.map (fun t => waves.map fun l =>
        (1 + z k) * stretch (m.minwave (st k)) (m.maxwave (st k)) (F (st k) (t0 k + (t - t0 k) / (1 + z k))) G (l / (1 + z k))), w) := by
    intro k hk
    obtain ⟨h1, h2, h3⟩ := hz k hk
    have hS := stateOf hs hk (hst k hk)
    have e1 := hS nd.str redshiftKey
    rw [h1] at e1
    cases hp : (st k).get? nd.str with
    | none => rw [hp] at e1; cases e1
    | some p =>
      rw [hp] at e1
      refine PhysicalProps.C32_evaluate { m with nodeString := nd.str } hm [] kw times waves (st k) w p (z k) (t0 k) (F (st k)) G h2 (hF (st k)) hG
        (hle (st k)) hne hp happ e1 ?_
      intro h0
      have e2 := hS nd.str t0Key
      rw [h3 h0, hp] at e2
      exact e2
  let ans : Nat → Mat ℝ := fun k => times.map (fun t => waves.map fun l =>
        (1 + z k) * stretch (m.minwave (st k)) (m.maxwave (st k)) (F (st k) (t0 k + (t - t0 k) / (1 + z k))) G (l / (1 + z k)))
  let out : Stack (Mat ℝ) := if gs.numSamples = 1 then .one (ans 0) else .many ((List.range gs.numSamples).map ans)
  have hpart : ∀ k < gs.numSamples, part out k = some (ans k) := by
    intro k hk
    by_cases h1 : gs.numSamples = 1
    · obtain rfl : k = 0 := by omega
      simp only [out, if_pos h1, part, if_true]
    · simp only [out, if_neg h1, part]
      simp [hk]
  have hfor : For gs.numSamples out := by
    by_cases h1 : gs.numSamples = 1
    · simp only [out, if_pos h1]; exact h1
    · simp only [out, if_neg h1]; exact ⟨h1, by simp⟩
  refine ⟨out, (sed_iff m hnd times waves given kw gs w H out w).2 ⟨rfl, (eachState_iff _ hs w out w).2 ⟨hfor, fun _ => w, rfl, rfl, ?_⟩⟩, hfor, ?_⟩
  · intro k hk
    exact ⟨st k, ans k, hst k hk, hpart k hk, hev k hk⟩
  · intro k hk
    exact ⟨st k, stateOf hs hk (hst k hk), hpart k hk⟩

/-- C137, the keywords. If the model covers every wavelength, has no effects and does not redshift, then entry k of the answer of evaluate_sed on a state is what the
model's own compute_sed gives for the very keywords of the call, the times, the wavelengths and the parameters of sample k. -/
theorem C137_keywords (m : SEDModel V (Dict Name A) σ ℝ) (hm : m.restEffects = [] ∧ m.obsEffects = []) (happ : m.applyRedshift = false)
    (hall : ∀ st, m.minwave st = none ∧ m.maxwave st = none) {H : Heap ℝ σ} {root : NodeId} (hroot : root < H.length) (times waves : List ℝ)
    (given : Option (GState.UpdateArg ℝ)) (kw : Dict Name A) {gs : GState ℝ} (hs : GraphLemmas.Shape gs) (w : σ) {H' : Heap ℝ σ} {out : Stack (Mat ℝ)} {w' : σ}
    (h : askSed m H root times waves (some gs) given kw w = .ok (H', out, w')) :
    For gs.numSamples out ∧ ∀ k < gs.numSamples, ∃ st a, StateOf gs k st ∧ part out k = some a ∧ m.computeSed kw st times waves = .ok a := by
  obtain ⟨nd, hnd⟩ : ∃ nd, H[root]? = some nd := ⟨_, List.getElem?_eq_getElem hroot⟩
  obtain ⟨-, he⟩ := (sed_iff m hnd _ _ _ _ _ _ _ _ _).1 h
  obtain ⟨hf, world, -, -, hk⟩ := (eachState_iff _ hs _ _ _).1 he
  refine ⟨hf, fun k hkn => ?_⟩
  obtain ⟨st, a, h1, h2, h3⟩ := hk k hkn
  refine ⟨st, a, stateOf hs hkn h1, h2, ?_⟩
  unfold SEDModel.evaluateSingle at h3
  dsimp only at h3
  cases hp : localParams st nd.str with
  | error e => rw [hp] at h3; cases h3
  | ok p =>
    rw [hp] at h3
    dsimp only at h3
    have hz : redshiftOf m.applyRedshift p = .ok none := by rw [happ]; rfl
    rw [hz, hm.1, hm.2] at h3
    dsimp only [restTimesOf, restWavesOf] at h3
    unfold SEDModel.sedExtrapolated at h3
    dsimp only at h3
    cases hmin : npMin waves with
    | none => rw [hmin] at h3; cases h3
    | some lo => cases hmax : npMax waves with
      | none => rw [hmin, hmax] at h3; cases h3
      | some hi =>
        rw [hmin, hmax, (hall st).1, (hall st).2] at h3
        dsimp only [Option.getD] at h3
        rw [if_pos ⟨le_rfl, le_rfl⟩] at h3
        cases hc : m.computeSed kw st times waves with
        | error e => rw [hc] at h3; cases h3
        | ok b =>
          rw [hc] at h3
          simp only [applyEffects, scaleBack, Except.ok.injEq, Prod.mk.injEq] at h3
          rw [h3.1]

/-- C137: spectra and bandfluxes agree. Let compute_sed, the extrapolator and the effects treat the times one by one and draw no random numbers. For every group of
passbands, state (of any number of samples), times and filters: if `evaluate_bandfluxes` and, for the wavelengths of the passband of some filter, `evaluate_sed` both
answer, then for every sample and every time with that filter the bandflux is the integral of that row of the spectra through the passband. -/
theorem C137_integral (m : SEDModel V (Dict Name A) σ ℝ) (hm : ∀ st, RowSed m st) (hex : ∀ ex, m.extrap = some ex → RowExt ex)
    (he : ∀ e ∈ m.restEffects ++ m.obsEffects, RowEffect e) {H : Heap ℝ σ} {root : NodeId} (hroot : root < H.length) (g : PassbandGroup ℝ) (times : List ℝ)
    (filters : List Name) {gs : GState ℝ} (hs : GraphLemmas.Shape gs) (w : σ) {bf : Stack (List ℝ)} {H1 H2 : Heap ℝ σ} {w1 w2 : σ}
    (hb : askBandfluxes m H root (.group g) times (some filters) (some gs) w = .ok (H1, bf, w1))
    {f : Name} {pb : Passband ℝ} (hg : g.getItem f = .ok pb) {sed : Stack (Mat ℝ)}
    (hsed : askSed m H root times pb.waves (some gs) none [] w = .ok (H2, sed, w2)) :
    w1 = w ∧ w2 = w ∧ ∀ k < gs.numSamples, ∃ a b, part sed k = some a ∧ part bf k = some b ∧ a.length = times.length ∧ b.length = times.length ∧
      ∀ (i : Nat) row x, filters[i]? = some f → a[i]? = some row → b[i]? = some x → x = pb.integrate row := by
  obtain ⟨nd, hnd⟩ : ∃ nd, H[root]? = some nd := ⟨_, List.getElem?_eq_getElem hroot⟩
  obtain ⟨-, h1⟩ := (sed_iff m hnd _ _ _ _ _ _ _ _ _).1 hsed
  obtain ⟨-, g', fs', e', hl, h2⟩ := (band_iff m hnd _ _ _ _ _ _ _ _).1 hb
  cases e'
  obtain ⟨-, world1, a0, an, hk1⟩ := (eachState_iff _ hs _ _ _).1 h1
  obtain ⟨-, world2, b0, bn, hk2⟩ := (eachState_iff _ hs _ _ _).1 h2
  have hrow : ∀ st r, RowWise (fun ts ws r => { m with nodeString := nd.str }.evaluateSingle [] ts ws st r []) r := fun st r =>
    BandfluxProps.evaluateSingle_rows { m with nodeString := nd.str } st (hm st) hex he [] [] r
  have c1 : ∀ k ≤ gs.numSamples, world1 k = w := by
    intro k
    induction k with
    | zero => intro _; exact a0
    | succ k ih =>
      intro hk
      obtain ⟨st, a, -, -, ha⟩ := hk1 k (by omega)
      rcases hrow st (world1 k) pb.waves with ⟨row, -, hr⟩ | ⟨e, hr⟩
      · have := ha.symm.trans (hr times)
        simp only [Except.ok.injEq, Prod.mk.injEq] at this
        rw [this.2]; exact ih (by omega)
      · have := ha.symm.trans (hr times)
        cases this
  have c2 : ∀ k ≤ gs.numSamples, world2 k = w := by
    intro k
    induction k with
    | zero => intro _; exact b0
    | succ k ih =>
      intro hk
      obtain ⟨st, a, -, -, ha⟩ := hk2 k (by omega)
      unfold SEDModel.evaluateBandfluxesSingle bandfluxesSingle at ha
      have := ((BandfluxProps.loop_spec (hrow st (world2 k)) g times filters hl (npUnique filters) (times.map fun _ => 0)
        (BandfluxProps.nodup_npUnique _) (fun f hf => (BandfluxProps.mem_npUnique _ _).1 hf) (by simp)).1 _ ha).1
      exact this.trans (ih (by omega))
  refine ⟨bn ▸ c2 _ le_rfl, an ▸ c1 _ le_rfl, ?_⟩
  intro k hk
  obtain ⟨st, a, hst, ha, hea⟩ := hk1 k hk
  obtain ⟨st', b, hst', hb', heb⟩ := hk2 k hk
  rw [hst] at hst'; cases hst'
  rw [c1 k hk.le, c1 (k + 1) hk] at hea
  rw [c2 k hk.le, c2 (k + 1) hk] at heb
  obtain ⟨hbl, hbi⟩ := (BandfluxProps.C31_independent _ w (hrow st w) g times filters hl b).1 heb
  have hwne : pb.waves ≠ [] := by
    intro h0
    obtain ⟨e, h3⟩ := EndToEndProps.empty_waves { m with nodeString := nd.str } [] st w
    rw [h0, h3 times] at hea
    cases hea
  rcases hrow st w pb.waves with ⟨row, hrl, hr⟩ | ⟨e, hr⟩
  · have h4 := hea.symm.trans (hr times)
    simp only [Except.ok.injEq, Prod.mk.injEq, and_true] at h4
    subst h4
    refine ⟨_, b, ha, hb', by simp, hbl, ?_⟩
    intro i rw' x hfi hai hbx
    rw [List.getElem?_map] at hai
    cases ht : times[i]? with
    | none => rw [ht] at hai; cases hai
    | some t =>
      rw [ht] at hai
      simp only [Option.map_some, Option.some.injEq] at hai
      subst hai
      have h5 := hbi i t f x ht hfi hbx
      rw [BandfluxProps.C31_value _ w g t f pb (row t) hg hwne (hrl t) (hr [t])] at h5
      simp only [Except.ok.injEq, Prod.mk.injEq, List.cons.injEq, and_true] at h5
      exact h5.symm
  · have h4 := hea.symm.trans (hr times)
    cases h4

/-- C137: and `evaluate_bandfluxes` answers whenever there is a filter for every time and `evaluate_sed` answers for the wavelengths of the passband of each. -/
theorem C137_answers (m : SEDModel V (Dict Name A) σ ℝ) (hm : ∀ st, RowSed m st) (hex : ∀ ex, m.extrap = some ex → RowExt ex)
    (he : ∀ e ∈ m.restEffects ++ m.obsEffects, RowEffect e) {H : Heap ℝ σ} {root : NodeId} (hroot : root < H.length) (g : PassbandGroup ℝ) (times : List ℝ)
    (filters : List Name) (hlen : filters.length = times.length) {gs : GState ℝ} (hs : GraphLemmas.Shape gs) (hr : Readable gs) (w : σ)
    (hsed : ∀ f ∈ filters, ∃ pb sed, g.getItem f = .ok pb ∧ askSed m H root times pb.waves (some gs) none [] w = .ok sed) :
    ∃ bf, askBandfluxes m H root (.group g) times (some filters) (some gs) w = .ok (H, bf, w) := by
  obtain ⟨nd, hnd⟩ : ∃ nd, H[root]? = some nd := ⟨_, List.getElem?_eq_getElem hroot⟩
  have hrow : ∀ st r, RowWise (fun ts ws r => { m with nodeString := nd.str }.evaluateSingle [] ts ws st r []) r := fun st r =>
    BandfluxProps.evaluateSingle_rows { m with nodeString := nd.str } st (hm st) hex he [] [] r
  have hconst : ∀ pb out w2, eachState (fun st w => { m with nodeString := nd.str }.evaluateSingle [] times pb st w []) gs w = .ok (out, w2) →
      ∀ k < gs.numSamples, ∃ st a, sstateOf (sampleOf gs k).states = .ok st ∧ { m with nodeString := nd.str }.evaluateSingle [] times pb st w [] = .ok (a, w) := by
    intro pb out w2 h
    obtain ⟨-, world, a0, an, hk1⟩ := (eachState_iff _ hs _ _ _).1 h
    have c1 : ∀ k ≤ gs.numSamples, world k = w := by
      intro k
      induction k with
      | zero => intro _; exact a0
      | succ k ih =>
        intro hk
        obtain ⟨st, a, -, -, ha⟩ := hk1 k (by omega)
        rcases hrow st (world k) pb with ⟨row, -, hr⟩ | ⟨e, hr⟩
        · have := ha.symm.trans (hr times)
          simp only [Except.ok.injEq, Prod.mk.injEq] at this
          rw [this.2]; exact ih (by omega)
        · have := ha.symm.trans (hr times)
          cases this
    intro k hk
    obtain ⟨st, a, h1, -, h2⟩ := hk1 k hk
    rw [c1 k hk.le, c1 (k + 1) hk] at h2
    exact ⟨st, a, h1, h2⟩
  have hone : ∀ k, ∃ q : SState ℝ × List ℝ, k < gs.numSamples → sstateOf (sampleOf gs k).states = .ok q.1 ∧
      { m with nodeString := nd.str }.evaluateBandfluxesSingle [] g times filters q.1 w = .ok (q.2, w) := by
    intro k
    by_cases hk : k < gs.numSamples
    · obtain ⟨st, hst⟩ := readable_state hs hr hk
      obtain ⟨res, hres⟩ := (BandfluxProps.loop_spec (hrow st w) g times filters hlen (npUnique filters) (times.map fun _ => 0)
        (BandfluxProps.nodup_npUnique _) (fun f hf => (BandfluxProps.mem_npUnique _ _).1 hf) (by simp)).2 (by
          intro f hf' t
          obtain ⟨pb, sed, hpb, hsd⟩ := hsed f ((BandfluxProps.mem_npUnique _ _).1 hf')
          obtain ⟨H3, o3, w3⟩ := sed
          obtain ⟨st', a, hst', ha⟩ := hconst pb.waves o3 w3 ((sed_iff m hnd _ _ _ _ _ _ _ _ _).1 hsd).2 k hk
          rw [hst] at hst'; cases hst'
          have hwne : pb.waves ≠ [] := by
            intro h0
            obtain ⟨e, h3⟩ := EndToEndProps.empty_waves { m with nodeString := nd.str } [] st w
            rw [h0, h3 times] at ha
            cases ha
          unfold BandfluxProps.single
          rw [hpb]
          dsimp only
          rcases hrow st w pb.waves with ⟨row, hrl, hr'⟩ | ⟨e, hr'⟩
          · have := hr' [t]
            dsimp only at this
            rw [this]
            simp only [List.map_cons, List.map_nil, Passband.bandflux]
            rw [if_neg (by intro h0; have := hrl t; rw [h0] at this; exact hwne (List.length_eq_zero_iff.1 this.symm)), if_neg (by rw [hrl t]; simp)]
            exact ⟨_, rfl⟩
          · have h4 := ha.symm.trans (hr' times)
            cases h4)
      have hw := ((BandfluxProps.loop_spec (hrow st w) g times filters hlen (npUnique filters) (times.map fun _ => 0)
        (BandfluxProps.nodup_npUnique _) (fun f hf => (BandfluxProps.mem_npUnique _ _).1 hf) (by simp)).1 _ hres).1
      obtain ⟨b, w2⟩ := res
      dsimp only at hw
      subst hw
      exact ⟨(st, b), fun _ => ⟨hst, hres⟩⟩
    · exact ⟨([], []), fun h => absurd h hk⟩
  choose q hq using hone
  let out : Stack (List ℝ) := if gs.numSamples = 1 then .one (q 0).2 else .many ((List.range gs.numSamples).map fun k => (q k).2)
  refine ⟨out, (band_iff m hnd _ _ _ _ _ _ _ _).2 ⟨rfl, g, filters, rfl, hlen, (eachState_iff _ hs w out w).2 ⟨?_, fun _ => w, rfl, rfl, ?_⟩⟩⟩
  · by_cases h1 : gs.numSamples = 1
    · simp only [out, if_pos h1]; exact h1
    · simp only [out, if_neg h1]; exact ⟨h1, by simp⟩
  · intro k hk
    refine ⟨(q k).1, (q k).2, (hq k hk).1, ?_, (hq k hk).2⟩
    by_cases h1 : gs.numSamples = 1
    · obtain rfl : k = 0 := by omega
      simp only [out, if_pos h1, part, if_true]
    · simp only [out, if_neg h1, part]
      simp [hk]

/-- C137 does not hold as stated (keywords): for every model and graph, a call of evaluate_sed with a further keyword and without a state raises TypeError, whatever
the keyword, though the documentation has further keywords handed to the computation of the spectrum. -/
theorem C137_keywords_counterexample (m : SEDModel V (Dict Name A) σ ℝ) (H : Heap ℝ σ) (root : NodeId) (times waves : List ℝ)
    (given : Option (GState.UpdateArg ℝ)) (kw : Dict Name A) (hkw : kw ≠ []) (w : σ) :
    askSed m H root times waves none given kw w = .error .typeError := by
  unfold askSed stateFor
  dsimp only
  rw [if_neg (by simpa using hkw)]

/-! ### Concrete cases -/

/-- A model whose spectrum is 5 everywhere. -/
noncomputable def flat5 : SEDModel Unit (Dict Name ℝ) Nat ℝ where
  nodeString := []
  setters := []
  computeSed := fun _ _ times waves => .ok (times.map fun _ => waves.map fun _ => 5)
  minwave := fun _ => none
  maxwave := fun _ => none
  extrap := none
  applyRedshift := true
  restEffects := []
  obsEffects := []

/-- Two samples: redshift 1 with t0 = 3, and redshift 0 without a t0. -/
noncomputable def twoSamples : GState ℝ where
  numSamples := 2
  numParams := 2
  states := [("source".toList, [(redshiftKey, .arr [.scalar 1, .scalar 0]), (t0Key, .arr [.scalar 3, .none])])]
  fixed := []

theorem two_look (n p : Name) : look twoSamples n p =
    if n = "source".toList then (if p = redshiftKey then some (.arr [.scalar 1, .scalar 0]) else if p = t0Key then some (.arr [.scalar 3, .none]) else none) else none := by
  unfold look twoSamples
  simp only [Dict.get?_cons, Dict.get?_nil]
  by_cases h : n = "source".toList
  · rw [if_pos h.symm, if_pos h]
    simp only [Option.bind_some, Dict.get?_cons, Dict.get?_nil, eq_comm]
  · rw [if_neg (fun e => h e.symm), if_neg h]; rfl

theorem two_shape : GraphLemmas.Shape twoSamples where
  pos := by show 1 ≤ 2; omega
  nodes := by decide
  vars := by
    intro n d h
    have := Dict.mem_of_get? h
    simp only [twoSamples, List.mem_singleton, Prod.mk.injEq] at this
    rw [this.2]
    decide
  dotN := by
    intro n h
    simp only [twoSamples, Dict.keys_cons, Dict.keys_nil, List.mem_singleton] at h
    subst h; decide
  dotV := by
    intro n d h
    have := Dict.mem_of_get? h
    simp only [twoSamples, List.mem_singleton, Prod.mk.injEq] at this
    rw [this.2]
    intro p hp
    simp only [Dict.keys_cons, Dict.keys_nil, List.mem_cons, List.not_mem_nil, or_false] at hp
    rcases hp with rfl | rfl <;> decide
  rows := by
    intro _ n p v h
    rw [two_look] at h
    split at h
    · split at h
      · cases h; exact ⟨_, rfl, rfl⟩
      · split at h
        · cases h; exact ⟨_, rfl, rfl⟩
        · cases h
    · cases h

theorem two_readable : Readable twoSamples := by
  intro k hk n p v hv
  rw [FullRunProps.sampleValue_look two_shape hk, look_sampleOf, two_look] at hv
  have hk : k < 2 := hk
  by_cases hn : n = "source".toList
  · rw [if_pos hn] at hv
    by_cases hp : p = redshiftKey
    · rw [if_pos hp] at hv
      cases hv
      obtain rfl | rfl : k = 0 ∨ k = 1 := by omega
      · exact ⟨.num 1, rfl⟩
      · exact ⟨.num 0, rfl⟩
    · rw [if_neg hp] at hv
      by_cases hp2 : p = t0Key
      · rw [if_pos hp2] at hv
        cases hv
        obtain rfl | rfl : k = 0 ∨ k = 1 := by omega
        · exact ⟨.num 3, rfl⟩
        · exact ⟨.none, rfl⟩
      · rw [if_neg hp2] at hv; cases hv
  · rw [if_neg hn] at hv; cases hv

/-- The spectra of these two samples. -/
theorem two_sed (times waves : List ℝ) (hne : waves ≠ []) : ∃ out, askSed flat5 [FullRunProps.exNode (some 0) "source".toList] 0 times waves (some twoSamples) none [] 7 =
      .ok ([FullRunProps.exNode (some 0) "source".toList], out, 7) ∧ For 2 out ∧
    part out 0 = some (times.map fun _ => waves.map fun _ => 10) ∧ part out 1 = some (times.map fun _ => waves.map fun _ => 5) := by
  have hsv : ∀ (p : Name) (k : Nat), k < 2 → sampleValue twoSamples "source".toList p k = look (sampleOf twoSamples k) "source".toList p :=
    fun p k hk => FullRunProps.sampleValue_look two_shape hk _ _
  obtain ⟨out, h1, h2, h3⟩ := C137_value flat5 ⟨rfl, rfl⟩ rfl (H := [FullRunProps.exNode (some 0) "source".toList]) (root := 0)
    (nd := FullRunProps.exNode (some 0) "source".toList) rfl times waves hne none [] two_shape two_readable
    7 (fun _ _ _ => 5) (fun _ _ _ => 0) (fun _ _ _ _ => rfl) (Or.inl ⟨rfl, rfl⟩) (by intro st l h h1; cases h1)
    (fun k => if k = 0 then 1 else 0) (fun _ => 3)
    (by
      intro k hk
      have hk : k < 2 := hk
      have e1 := hsv redshiftKey k hk
      have e2 := hsv t0Key k hk
      rw [look_sampleOf, two_look] at e1 e2
      rw [if_pos rfl, if_pos rfl] at e1
      rw [if_pos rfl, if_neg (by decide), if_pos rfl] at e2
      obtain rfl | rfl : k = 0 ∨ k = 1 := by omega
      · refine ⟨e1, ?_, fun _ => e2⟩
        rw [if_pos rfl]; norm_num
      · refine ⟨e1, ?_, fun h => absurd rfl h⟩
        rw [if_neg (by omega)]; norm_num)
  refine ⟨out, h1, h2, ?_, ?_⟩
  · obtain ⟨st, -, h⟩ := h3 0 (by show 0 < 2; omega)
    refine h.trans ?_
    simp only [stretch, flat5, Option.filter_none]
    norm_num
  · obtain ⟨st, -, h⟩ := h3 1 (by show 1 < 2; omega)
    refine h.trans ?_
    simp only [stretch, flat5, Option.filter_none]
    norm_num

/-- The answers for two samples with different redshifts are a stack of two different arrays. -/
example : ∃ l, askSed flat5 [FullRunProps.exNode (some 0) "source".toList] 0 [1, 2] [100, 200, 300] (some twoSamples) none [] 7 =
      .ok ([FullRunProps.exNode (some 0) "source".toList], .many l, 7) ∧
    l[0]? = some [[10, 10, 10], [10, 10, 10]] ∧ l[1]? = some [[5, 5, 5], [5, 5, 5]] := by
  obtain ⟨out, h1, h2, h3, h4⟩ := two_sed [1, 2] [100, 200, 300] (by simp)
  cases out with
  | one a => exact absurd h2 (by show ¬ (2 = 1); omega)
  | many l => exact ⟨l, h1, h3, h4⟩

/-- The bandfluxes of these samples exist and are the integrals of 10 and 5 through the g band. -/
example : ∃ bf b0 b1, askBandfluxes flat5 [FullRunProps.exNode (some 0) "source".toList] 0 (.group EndToEndProps.gGroup) [1, 2] (some ["g".toList, "g".toList])
      (some twoSamples) 7 = .ok ([FullRunProps.exNode (some 0) "source".toList], bf, 7) ∧
    part bf 0 = some b0 ∧ part bf 1 = some b1 ∧ (∀ x ∈ b0, x = EndToEndProps.gBand.integrate [10, 10, 10]) ∧
    (∀ x ∈ b1, x = EndToEndProps.gBand.integrate [5, 5, 5]) ∧ b0.length = 2 ∧ b1.length = 2 := by
  have hg : EndToEndProps.gGroup.getItem "g".toList = .ok EndToEndProps.gBand := rfl
  have hw : EndToEndProps.gBand.waves.length = 3 := rfl
  have hrs : ∀ st, RowSed flat5 st := fun st kw ws => Or.inl ⟨fun _ => ws.map fun _ => 5, by simp, fun ts => rfl⟩
  obtain ⟨out, h1, h2, h3, h4⟩ := two_sed [1, 2] EndToEndProps.gBand.waves (by intro h; rw [h] at hw; cases hw)
  have hroot : (0 : NodeId) < [FullRunProps.exNode (some 0) "source".toList].length := Nat.zero_lt_one
  obtain ⟨bf, hb⟩ := C137_answers flat5 hrs (by intro ex h; cases h) (by intro e h; cases h) hroot EndToEndProps.gGroup [1, 2] ["g".toList, "g".toList] rfl two_shape
    two_readable 7 (by
      intro f hf
      have : f = "g".toList := by simpa using hf
      subst this
      exact ⟨_, _, hg, h1⟩)
  obtain ⟨-, -, hk⟩ := C137_integral flat5 hrs (by intro ex h; cases h) (by intro e h; cases h) hroot EndToEndProps.gGroup [1, 2] ["g".toList, "g".toList] two_shape 7 hb hg h1
  obtain ⟨a0, b0, ha0, hb0, hl0, hm0, hi0⟩ := hk 0 (by show 0 < 2; omega)
  obtain ⟨a1, b1, ha1, hb1, hl1, hm1, hi1⟩ := hk 1 (by show 1 < 2; omega)
  rw [h3] at ha0; cases ha0
  rw [h4] at ha1; cases ha1
  have hlt : ∀ i : Nat, i < 2 → (["g".toList, "g".toList] : List Name)[i]? = some "g".toList := by
    intro i hi
    obtain rfl | rfl : i = 0 ∨ i = 1 := by omega
    · rfl
    · rfl
  refine ⟨bf, b0, b1, hb, hb0, hb1, ?_, ?_, hm0, hm1⟩
  · intro x hx
    obtain ⟨i, hi, rfl⟩ := List.getElem_of_mem hx
    have hi2 : i < 2 := by rw [hm0] at hi; exact hi
    refine hi0 i _ _ (hlt i hi2) ?_ (List.getElem?_eq_getElem hi)
    obtain rfl | rfl : i = 0 ∨ i = 1 := by omega
    · rfl
    · rfl
  · intro x hx
    obtain ⟨i, hi, rfl⟩ := List.getElem_of_mem hx
    have hi2 : i < 2 := by rw [hm1] at hi; exact hi
    refine hi1 i _ _ (hlt i hi2) ?_ (List.getElem?_eq_getElem hi)
    obtain rfl | rfl : i = 0 ∨ i = 1 := by omega
    · rfl
    · rfl

/-- Without a state the graph is sampled first (the hypotheses of C137_fresh are met by this graph), but not if there is a keyword. -/
example : NodeSpec.GraphOK [FullRunProps.exNode none []] ∧
    askSed flat5 [FullRunProps.exNode none []] 0 [1] [2] none none [("a".toList, 1)] 7 = .error .typeError :=
  ⟨FullRunProps.ex_graph, C137_keywords_counterexample flat5 _ 0 _ _ none [("a".toList, 1)] (by simp) 7⟩

/-- A model whose spectrum is the sum of the values of its keywords. -/
noncomputable def kwModel : SEDModel Unit (Dict Name ℝ) Nat ℝ :=
  { flat5 with computeSed := fun kw _ times waves => .ok (times.map fun _ => waves.map fun _ => (kw.map (·.2)).sum), applyRedshift := false }

/-- Its answer for the keywords a = 3 and b = 4, at two times and one wavelength. -/
noncomputable def kwAnswer : Mat ℝ := ([1, 2] : List ℝ).map fun _ => ([100] : List ℝ).map fun _ => (([("a".toList, 3), ("b".toList, 4)] : Dict Name ℝ).map (·.2)).sum

/-- The keywords of a call with a state reach the model (the hypotheses of C137_keywords are met). -/
example : ∃ out, askSed kwModel [FullRunProps.exNode (some 0) "source".toList] 0 [1, 2] [100] (some twoSamples) none [("a".toList, 3), ("b".toList, 4)] 7 =
    .ok ([FullRunProps.exNode (some 0) "source".toList], out, 7) := by
  have hev : ∀ st : SState ℝ, (∃ p, st.get? "source".toList = some p) →
      { kwModel with nodeString := "source".toList }.evaluateSingle [] [1, 2] [100] st 7 [("a".toList, 3), ("b".toList, 4)] =
        .ok (kwAnswer, 7) := by
    rintro st ⟨p, hp⟩
    unfold SEDModel.evaluateSingle localParams
    dsimp only
    rw [hp]
    have hz : redshiftOf kwModel.applyRedshift p = .ok none := rfl
    dsimp only
    rw [hz]
    dsimp only [restTimesOf, restWavesOf]
    have h1 : npMin ([100] : List ℝ) = some 100 := rfl
    have h2 : npMax ([100] : List ℝ) = some 100 := rfl
    unfold SEDModel.sedExtrapolated
    rw [h1, h2]
    dsimp only [kwModel, flat5, Option.getD]
    rw [if_pos ⟨le_rfl, le_rfl⟩]
    rfl
  have hst : ∀ k < 2, ∃ st, sstateOf (sampleOf twoSamples k).states = .ok st ∧ ∃ p, st.get? "source".toList = some p := by
    intro k hk
    obtain ⟨st, h⟩ := readable_state two_shape two_readable (k := k) hk
    refine ⟨st, h, ?_⟩
    have e := stateOf two_shape (k := k) hk h "source".toList redshiftKey
    rw [FullRunProps.sampleValue_look two_shape hk, look_sampleOf, two_look, if_pos rfl, if_pos rfl] at e
    cases hp : st.get? "source".toList with
    | none =>
      rw [hp] at e
      obtain rfl | rfl : k = 0 ∨ k = 1 := by omega
      · cases e
      · cases e
    | some p => exact ⟨p, rfl⟩
  obtain ⟨s0, h0, p0⟩ := hst 0 (by omega)
  obtain ⟨s1, h1, p1⟩ := hst 1 (by omega)
  refine ⟨.many [kwAnswer, kwAnswer], (sed_iff kwModel (nd := FullRunProps.exNode (some 0) "source".toList) rfl _ _ _ _ _ _ _ _ _).2 ⟨rfl,
    (eachState_iff _ two_shape _ _ _).2 ⟨⟨by show ¬ (2 = 1); omega, rfl⟩, fun _ => 7, rfl, rfl, ?_⟩⟩⟩
  intro k hk
  have hk : k < 2 := hk
  obtain rfl | rfl : k = 0 ∨ k = 1 := by omega
  · exact ⟨s0, _, h0, rfl, hev s0 p0⟩
  · exact ⟨s1, _, h1, rfl, hev s1 p1⟩

end LCL.DirectProps
