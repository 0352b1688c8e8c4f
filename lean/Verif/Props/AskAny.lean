import Verif.Spec.AskAny
import Verif.Props.Recorded
import Verif.Props.Composite
import Verif.Props.MultiObject
import Verif.Props.BasicModels2

/-!
# C144 — any model, asked directly, answers as in a simulation
-/

namespace LCL.AskAnyProps
open LCL LCL.FullRun LCL.FullRunSpec LCL.FullRunProps LCL.EndToEnd LCL.EndToEndSpec LCL.NodeSpec LCL.SimSpec LCL.PhysSpec LCL.GraphLemmas LCL.GraphSpec LCL.Direct LCL.DirectSpec LCL.DirectProps
  LCL.RecordedSpec LCL.RecordedProps LCL.AskAny LCL.AskAnySpec
variable {V W σ R : Type}

/-! ### What treats observations one by one -/

theorem get_single {β : Type} {l : List β} {i : Nat} {n : Nat} (hl : l.length = n) (hi : i < n) : ∃ x, l[i]? = some x := ⟨l[i], List.getElem?_eq_getElem (by omega)⟩

theorem effects_oneByOne {p : Params ℝ} {ts : List ℝ} {fs : List Name} (hfs : fs.length = ts.length) : ∀ (es : List (Effect V R ℝ)) (r : R) (a : List ℝ) (out : List ℝ) (r' : R),
    (∀ e ∈ es, EffectOneByOne e p) → a.length = ts.length → applyBandEffects p ts fs es r a = .ok (out, r') → r' = r ∧ out.length = ts.length ∧
      ∀ (i : Nat) t f x y, ts[i]? = some t → fs[i]? = some f → a[i]? = some x → out[i]? = some y → ∀ r2, applyBandEffects p [t] [f] es r2 [x] = .ok ([y], r2)
  | [], r, a, out, r', _, ha, h => by
    simp only [applyBandEffects, Except.ok.injEq, Prod.mk.injEq] at h
    obtain ⟨rfl, rfl⟩ := h
    refine ⟨rfl, ha, fun i t f x y _ _ hx hy r2 => ?_⟩
    rw [hx] at hy
    cases hy
    rfl
  | e :: es, r, a, out, r', he, ha, h => by
    unfold applyBandEffects at h
    split at h
    · cases h
    · rename_i a1 r1 h1
      obtain ⟨rfl, l1, c1⟩ := he e (by simp) ts fs r a a1 r1 hfs ha h1
      obtain ⟨rfl, l2, c2⟩ := effects_oneByOne hfs es _ a1 out r' (fun e h => he e (List.mem_cons_of_mem _ h)) l1 h
      refine ⟨rfl, l2, fun i t f x y ht hf hx hy r2 => ?_⟩
      obtain ⟨z, hz⟩ := get_single l1 (List.getElem?_eq_some_iff.1 ht).1
      unfold applyBandEffects
      rw [c1 i t f x z ht hf hx hz r2]
      exact c2 i t f z y ht hf hz hy r2

/-- C144: a bandflux model whose computation and effects treat observations one by one. -/
theorem band_oneByOne (noKw : W) (g : PassbandGroup ℝ) (st : SState ℝ) (m : BandModel V R ℝ) (hc : OneByOne fun ts fs r => m.computeBandflux ts fs st r)
    (he : ∀ e ∈ m.effects, ∀ p, EffectOneByOne e p) : ModelOneByOne noKw g st (.band m : PhysModel V W R ℝ) := by
  intro ts fs r out r' hl h
  dsimp only at h ⊢
  simp only [PhysModel.bandfluxesSingle] at h ⊢
  unfold BandModel.evaluateBandfluxesSingle at h ⊢
  cases hp : localParams st m.nodeString with
  | error e => rw [hp] at h; cases h
  | ok p =>
    rw [hp] at h
    dsimp only at h ⊢
    cases hb : m.computeBandflux ts fs st r with
    | error e => rw [hb] at h; cases h
    | ok q =>
      obtain ⟨a, r1⟩ := q
      rw [hb] at h
      dsimp only at h
      obtain ⟨rfl, l1, c1⟩ := hc ts fs r a r1 hl hb
      obtain ⟨rfl, l2, c2⟩ := effects_oneByOne hl m.effects _ a out r' (fun e h => he e h p) l1 h
      refine ⟨rfl, l2, fun i t f x ht hf hx r2 => ?_⟩
      obtain ⟨z, hz⟩ := get_single l1 (List.getElem?_eq_some_iff.1 ht).1
      have := c1 i t f z ht hf hz r2
      dsimp only at this
      rw [this]
      exact c2 i t f z x ht hf hz hx r2

/-- An SED model whose spectrum, extrapolation and effects treat the times one by one. -/
theorem sed_oneByOne (noKw : W) (g : PassbandGroup ℝ) (st : SState ℝ) (m : SEDModel V W R ℝ) (hm : RowSed m st) (hex : ∀ ex, m.extrap = some ex → RowExt ex)
    (he : ∀ e ∈ m.restEffects ++ m.obsEffects, RowEffect e) : ModelOneByOne noKw g st (.sed m : PhysModel V W R ℝ) := by
  intro ts fs r out r' hl h
  dsimp only at h ⊢
  simp only [PhysModel.bandfluxesSingle] at h ⊢
  have hrow : RowWise (fun ts ws r => m.evaluateSingle noKw ts ws st r noKw) r := BandfluxProps.evaluateSingle_rows m st hm hex he noKw noKw r
  have hr' : r' = r := by
    have hev' := h
    unfold SEDModel.evaluateBandfluxesSingle LCL.bandfluxesSingle at hev'
    exact ((BandfluxProps.loop_spec hrow g ts fs hl (npUnique fs) (ts.map fun _ => 0)
      (BandfluxProps.nodup_npUnique _) (fun f hf => (BandfluxProps.mem_npUnique _ _).1 hf) (by simp)).1 _ hev').1
  subst hr'
  obtain ⟨c1, c2⟩ := (BandfluxProps.C31_independent _ r' hrow g ts fs hl out).1 h
  exact ⟨rfl, c1, fun i t f x ht hf hx r => one_uniform m st hm hex he noKw g (c2 i t f x ht hf hx) r⟩

theorem sum_oneByOne (noKw : W) (g : PassbandGroup ℝ) (st : SState ℝ) {ts : List ℝ} {fs : List Name} (hfs : fs.length = ts.length) :
    ∀ (os : List (PhysModel V W R ℝ)) (ws : List ℝ) (acc : List ℝ) (r : R) (out : List ℝ) (r' : R), (∀ o ∈ os, ModelOneByOne noKw g st o) → acc.length = ts.length →
      PhysModel.sumBand noKw g ts fs st os ws acc r = .ok (out, r') → r' = r ∧ out.length = ts.length ∧
      ∀ (i : Nat) t f x y, ts[i]? = some t → fs[i]? = some f → acc[i]? = some x → out[i]? = some y → ∀ r2, PhysModel.sumBand noKw g [t] [f] st os ws [x] r2 = .ok ([y], r2)
  | [], ws, acc, r, out, r', _, ha, h => by
    simp only [PhysModel.sumBand, Except.ok.injEq, Prod.mk.injEq] at h
    obtain ⟨rfl, rfl⟩ := h
    refine ⟨rfl, ha, fun i t f x y _ _ hx hy r2 => ?_⟩
    rw [hx] at hy
    cases hy
    simp only [PhysModel.sumBand]
  | o :: os, [], acc, r, out, r', _, _, h => by
    simp only [PhysModel.sumBand] at h
    split at h <;> cases h
  | o :: os, w :: ws, acc, r, out, r', ho, ha, h => by
    simp only [PhysModel.sumBand] at h
    split at h
    · cases h
    · rename_i a r1 h1
      obtain ⟨rfl, l1, c1⟩ := ho o (by simp) ts fs r a r1 hfs h1
      unfold PhysModel.addScaledBand at h
      rw [if_pos (by omega)] at h
      dsimp only at h
      obtain ⟨rfl, l2, c2⟩ := sum_oneByOne noKw g st hfs os ws _ _ out r' (fun o h => ho o (List.mem_cons_of_mem _ h)) (by rw [List.length_zipWith]; omega) h
      refine ⟨rfl, l2, fun i t f x y ht hf hx hy r2 => ?_⟩
      obtain ⟨z, hz⟩ := get_single l1 (List.getElem?_eq_some_iff.1 ht).1
      have := c1 i t f z ht hf hz r2
      dsimp only at this
      simp only [PhysModel.sumBand]
      rw [this]
      dsimp only
      unfold PhysModel.addScaledBand
      rw [if_pos (show [x].length = [z].length from rfl)]
      dsimp only
      exact c2 i t f (x + w * z) y ht hf (by rw [List.getElem?_zipWith, hx, hz]) hy r2

theorem named_oneByOne (noKw : W) (g : PassbandGroup ℝ) (st : SState ℝ) (name : Name) : ∀ (os : List (PhysModel V W R ℝ)) (ns : List Name),
    (∀ ts fs r, PhysModel.bandNamed noKw g ts fs st name os ns r = none) ∨
      ∃ o ∈ os, ∀ ts fs r, PhysModel.bandNamed noKw g ts fs st name os ns r = some (PhysModel.bandfluxesSingle noKw g ts fs st o r)
  | [], ns => Or.inl fun ts fs r => by simp only [PhysModel.bandNamed]
  | o :: os, [] => Or.inl fun ts fs r => by simp only [PhysModel.bandNamed]
  | o :: os, n :: ns => by
    rcases named_oneByOne noKw g st name os ns with h | ⟨o', ho', h⟩
    · by_cases hn : n = name
      · exact Or.inr ⟨o, by simp, fun ts fs r => by simp only [PhysModel.bandNamed, h, if_pos hn]⟩
      · exact Or.inl fun ts fs r => by simp only [PhysModel.bandNamed, h, if_neg hn]
    · exact Or.inr ⟨o', List.mem_cons_of_mem _ ho', fun ts fs r => by simp only [PhysModel.bandNamed, h]⟩

/-- C144: what treats observations one by one: an SED model whose spectrum, extrapolation and effects treat the times one by one; a bandflux model whose computation and effects
do; an additive or a random model of such objects, with such effects. -/
theorem C144_parts (noKw : W) (g : PassbandGroup ℝ) (st : SState ℝ) :
    (∀ m : SEDModel V W R ℝ, RowSed m st → (∀ ex, m.extrap = some ex → RowExt ex) → (∀ e ∈ m.restEffects ++ m.obsEffects, RowEffect e) → ModelOneByOne noKw g st (.sed m)) ∧
    (∀ m : BandModel V R ℝ, (OneByOne fun ts fs r => m.computeBandflux ts fs st r) → (∀ e ∈ m.effects, ∀ p, EffectOneByOne e p) →
      ModelOneByOne noKw g st (.band m : PhysModel V W R ℝ)) ∧
    (∀ node setters (objects : List (PhysModel V W R ℝ)) weights effects, (∀ o ∈ objects, ModelOneByOne noKw g st o) → (∀ e ∈ effects, ∀ p, EffectOneByOne e p) →
      ModelOneByOne noKw g st (.additive node setters objects weights effects)) ∧
    (∀ node setters (objects : List (PhysModel V W R ℝ)) names effects, (∀ o ∈ objects, ModelOneByOne noKw g st o) → (∀ e ∈ effects, ∀ p, EffectOneByOne e p) →
      ModelOneByOne noKw g st (.random node setters objects names effects)) := by
  refine ⟨fun m h1 h2 h3 => sed_oneByOne noKw g st m h1 h2 h3, fun m h1 h2 => band_oneByOne noKw g st m h1 h2, ?_, ?_⟩
  · intro node setters objects weights effects ho he ts fs r out r' hl h
    dsimp only at h ⊢
    simp only [PhysModel.bandfluxesSingle] at h ⊢
    split at h
    · cases h
    · rename_i a r1 h1
      obtain ⟨rfl, l1, c1⟩ := sum_oneByOne noKw g st hl objects weights _ _ a r1 ho (by simp) h1
      cases hp : localParams st node with
      | error e => rw [hp] at h; cases h
      | ok p =>
        rw [hp] at h
        dsimp only at h
        obtain ⟨rfl, l2, c2⟩ := effects_oneByOne hl effects _ a out r' (fun e h => he e h p) l1 h
        refine ⟨rfl, l2, fun i t f x ht hf hx r2 => ?_⟩
        have hi := (List.getElem?_eq_some_iff.1 ht).1
        obtain ⟨z, hz⟩ := get_single l1 hi
        have := c1 i t f 0 z ht hf (by rw [List.getElem?_map, ht]; rfl) hz r2
        simp only [List.map_cons, List.map_nil]
        rw [this]
        exact c2 i t f z x ht hf hz hx r2
  · intro node setters objects names effects ho he ts fs r out r' hl h
    dsimp only at h ⊢
    simp only [PhysModel.bandfluxesSingle] at h ⊢
    cases hs : PhysModel.selected st node with
    | none => rw [hs] at h; cases h
    | some name =>
      rw [hs] at h
      dsimp only at h ⊢
      rcases named_oneByOne noKw g st name objects names with hn | ⟨o, hmem, hn⟩
      · rw [hn] at h; cases h
      · rw [hn] at h
        cases hb : PhysModel.bandfluxesSingle noKw g ts fs st o r with
        | error e => rw [hb] at h; cases h
        | ok q =>
          obtain ⟨a, r1⟩ := q
          rw [hb] at h
          dsimp only at h
          obtain ⟨rfl, l1, c1⟩ := ho o hmem ts fs r a r1 hl hb
          cases hp : localParams st node with
          | error e => rw [hp] at h; cases h
          | ok p =>
            rw [hp] at h
            dsimp only at h
            obtain ⟨rfl, l2, c2⟩ := effects_oneByOne hl effects _ a out r' (fun e h => he e h p) l1 h
            refine ⟨rfl, l2, fun i t f x ht hf hx r2 => ?_⟩
            obtain ⟨z, hz⟩ := get_single l1 (List.getElem?_eq_some_iff.1 ht).1
            have := c1 i t f z ht hf hz r2
            dsimp only at this
            rw [hn, this]
            exact c2 i t f z x ht hf hz hx r2

/-! ### Asking -/

theorem ask_iff (mk : Heap ℝ σ → PNode ℝ σ → PhysModel V W σ ℝ) (noKw : W) {H : Heap ℝ σ} {root : NodeId} {nd : PNode ℝ σ} (hnd : H[root]? = some nd) (objs : List NodeId) (arg : BandArg ℝ)
    (times : List ℝ) (filters : Option (List Name)) (gs : GState ℝ) (w : σ) (H' : Heap ℝ σ) (out : Stack (List ℝ)) (w' : σ) :
    askPhys mk noKw H root objs arg times filters (some gs) w = .ok (H', out, w') ↔
      H' = H ∧ ∃ g fs, arg.resolve times.length filters = .ok (g, fs) ∧ fs.length = times.length ∧
        eachState (fun st w => PhysModel.bandfluxesSingle noKw g times fs st (mk H nd) w) gs w = .ok (out, w') := by
  unfold askPhys stateOr
  dsimp only
  rw [hnd]
  dsimp only
  cases arg.resolve times.length filters with
  | error e => simp
  | ok q =>
    obtain ⟨g, fs⟩ := q
    dsimp only
    by_cases hl : fs.length = times.length
    · rw [if_neg (by simp [hl])]
      cases he : eachState (fun st w => PhysModel.bandfluxesSingle noKw g times fs st (mk H nd) w) gs w with
      | error e =>
        constructor
        · intro h; cases h
        · rintro ⟨-, g', fs', e1, -, e3⟩
          cases e1
          rw [he] at e3; cases e3
      | ok q =>
        obtain ⟨o, w1⟩ := q
        constructor
        · intro h
          cases h
          exact ⟨rfl, g, fs, rfl, hl, he⟩
        · rintro ⟨rfl, g', fs', e1, -, e3⟩
          cases e1
          rw [he] at e3
          cases e3
          rfl
    · rw [if_pos hl]
      constructor
      · intro h; cases h
      · rintro ⟨-, g', fs', e1, e2, -⟩
        cases e1
        exact absurd e2 hl

/-- C144. Whatever the model, a request for a whole state is answered by the answers to the requests for its samples, one after the other, and leaves the graph alone. -/
theorem C144_samples (mk : Heap ℝ σ → PNode ℝ σ → PhysModel V W σ ℝ) (noKw : W) {H : Heap ℝ σ} {root : NodeId} (hroot : root < H.length) (objs : List NodeId) (arg : BandArg ℝ)
    (times : List ℝ) (filters : Option (List Name)) {gs : GState ℝ} (hs : Shape gs) (w : σ) (H' : Heap ℝ σ) (out : Stack (List ℝ)) (w' : σ) :
    askPhys mk noKw H root objs arg times filters (some gs) w = .ok (H', out, w') ↔
      H' = H ∧ SampleBySample (fun g => askPhys mk noKw H root objs arg times filters (some g)) gs H w out w' := by
  obtain ⟨nd, hnd⟩ : ∃ nd, H[root]? = some nd := ⟨_, List.getElem?_eq_getElem hroot⟩
  rw [ask_iff mk noKw hnd]
  refine and_congr_right fun _ => ?_
  constructor
  · rintro ⟨g, fs, hr, hl, he⟩
    refine (eachState_bySample _ hs H w out w' _ ?_).1 he
    intro g' w1 o w2
    rw [ask_iff mk noKw hnd]
    constructor
    · rintro ⟨-, g2, fs2, e2, -, h2⟩
      rw [hr] at e2; cases e2
      exact h2
    · intro h; exact ⟨rfl, g, fs, hr, hl, h⟩
  · rintro h
    obtain ⟨gk, a, -, -, hk⟩ := h.2.choose_spec.2.2 0 hs.pos
    obtain ⟨-, g, fs, hr, hl, -⟩ := (ask_iff mk noKw hnd _ _ _ _ _ _ _ _ _).1 hk
    refine ⟨g, fs, hr, hl, (eachState_bySample _ hs H w out w' _ ?_).2 h⟩
    intro g' w1 o w2
    rw [ask_iff mk noKw hnd]
    constructor
    · rintro ⟨-, g2, fs2, e2, -, h2⟩
      rw [hr] at e2; cases e2
      exact h2
    · intro h; exact ⟨rfl, g, fs, hr, hl, h⟩

/-- C144. Asked without a state, the model samples one (a composite together with its objects) and answers for it. -/
theorem C144_fresh (mk : Heap ℝ σ → PNode ℝ σ → PhysModel V W σ ℝ) (noKw : W) (H : Heap ℝ σ) (root : NodeId) (objs : List NodeId) (arg : BandArg ℝ)
    (times : List ℝ) (filters : Option (List Name)) (w : σ) (H' : Heap ℝ σ) (out : Stack (List ℝ)) (w' : σ) :
    askPhys mk noKw H root objs arg times filters none w = .ok (H', out, w') ↔
      ∃ H1 run, Heap.sampleParameters H root objs none 1 w = .ok (H1, run) ∧ askPhys mk noKw H1 root objs arg times filters (some run.gs) run.world = .ok (H', out, w') := by
  unfold askPhys stateOr
  dsimp only
  cases hr : Heap.sampleParameters H root objs none 1 w with
  | error e => simp
  | ok q =>
    obtain ⟨H1, run⟩ := q
    dsimp only
    constructor
    · intro h; exact ⟨H1, run, rfl, h⟩
    · rintro ⟨H2, run2, e, h⟩
      cases e
      exact h

/-- C144. Let the model treat observations one by one. Asked for many observations and many samples at once, its answer for observation `i` in sample `k` is the one it gives
for that observation and that sample alone, at any time: the order and the company of the observations do not matter, and no random numbers are drawn. -/
theorem C144_independent (mk : Heap ℝ σ → PNode ℝ σ → PhysModel V W σ ℝ) (noKw : W) {H : Heap ℝ σ} {root : NodeId} {nd : PNode ℝ σ} (hnd : H[root]? = some nd) (objs : List NodeId)
    (g : PassbandGroup ℝ) (hone : ∀ st, ModelOneByOne noKw g st (mk H nd)) (times : List ℝ) (fs : List Name) {gs : GState ℝ} (hs : Shape gs) (w : σ) {H' : Heap ℝ σ}
    {out : Stack (List ℝ)} {w' : σ} (h : askPhys mk noKw H root objs (.group g) times (some fs) (some gs) w = .ok (H', out, w')) :
    H' = H ∧ w' = w ∧ For gs.numSamples out ∧ ∀ k < gs.numSamples, ∃ gk row, gs.extractSample (k : Nat) = .ok gk ∧ part out k = some row ∧ row.length = times.length ∧
      ∀ (i : Nat) t f x, times[i]? = some t → fs[i]? = some f → row[i]? = some x →
        ∀ w2, askPhys mk noKw H root objs (.group g) [t] (some [f]) (some gk) w2 = .ok (H, .one [x], w2) := by
  obtain ⟨rfl, g', fs', hr, hl, he⟩ := (ask_iff mk noKw hnd _ _ _ _ _ _ _ _ _).1 h
  cases hr
  obtain ⟨hf, world, h0, h1, hk⟩ := (eachState_iff _ hs _ _ _).1 he
  have hsame : ∀ k, k ≤ gs.numSamples → world k = w := by
    intro k
    induction k with
    | zero => exact fun _ => h0
    | succ k ih =>
      intro hle
      obtain ⟨st, a, _, _, h3⟩ := hk k (by omega)
      obtain ⟨e, _⟩ := hone st times fs _ _ _ hl h3
      rw [e, ih (by omega)]
  refine ⟨rfl, by rw [← h1]; exact hsame _ (le_refl _), hf, fun k hkn => ?_⟩
  obtain ⟨st, a, e1, e2, e3⟩ := hk k hkn
  obtain ⟨_, l1, c1⟩ := hone st times fs _ _ _ hl e3
  refine ⟨sampleOf gs k, a, extractSample_ok gs hs k hkn, e2, l1, fun i t f x ht hf' hx w2 => ?_⟩
  rw [ask_iff mk noKw hnd]
  refine ⟨rfl, g, [f], rfl, rfl, ?_⟩
  exact eachState_single (sampleOf_numSamples gs k) e1 (c1 i t f x ht hf' hx w2)

theorem evalPhys_single {o : PhysModel V W R ℝ} {noKw : W} {g : PassbandGroup ℝ} {ts : List ℝ} {fs : List Name} {st : SState ℝ} {r r' : R} {p : List ℝ}
    (h : evalPhys o noKw g ts fs st r = .ok (p, r')) : fs.length = ts.length ∧ PhysModel.bandfluxesSingle noKw g ts fs st o r = .ok (p, r') := by
  unfold evalPhys evaluateBandfluxes at h
  by_cases hl : fs.length = ts.length
  · refine ⟨hl, ?_⟩
    simp only [BandArg.resolve, hl, ne_eq, not_true_eq_false, if_false, eachSample] at h
    cases hx : PhysModel.bandfluxesSingle noKw g ts fs st o r with
    | error e => rw [hx] at h; cases h
    | ok a => rw [hx] at h; cases h; rfl
  · simp only [BandArg.resolve, hl, ne_eq, not_false_eq_true, if_true] at h
    cases h

/-- C144. The fluxes a simulation of any such model records can be had again: every entry of the lightcurve of row `k` names a survey; asked for the flux at the entry's time in
the entry's filter, with that survey's passbands and the state restored from the row's `params`, the model answers with exactly the entry's `flux_perfect`. -/
theorem C144_flux (mk : Heap ℝ σ → PNode ℝ σ → PhysModel V W σ ℝ) {isBand : Bool} (noKw : W) {draw : σ → ℝ × σ} {H : Heap ℝ σ} (hG : GraphOK H) {root : NodeId} {objs : List NodeId}
    (hph : Physical H root) {n : Int} {args : List SurveyArg} {saveCols paramCols : List Name} {offset : Option (List (Option ℝ))} {w : σ} {out : Outcome σ}
    (hstd : ∀ c ∈ paramCols, colName c ∉ standardCols) (hne : args ≠ []) (hbuilt : ∀ a ∈ args, ObsSpec.Built a.table)
    (hrad : ∀ a ∈ args, ∃ rad, a.table.radius = some rad ∧ 0 ≤ rad ∧ rad ≤ 180) (hsave : saveCols.Nodup ∧ ∀ c ∈ saveCols, c ∉ baseCols)
    (h : simulatePhys mk isBand noKw draw H root objs n args saveCols paramCols offset w = .ok out)
    (hone : ∀ nd, out.graph[root]? = some nd → ∀ g st, ModelOneByOne noKw g st (mk out.graph nd)) (k : Nat) (hk : (k : Int) < n)
    {d : Dict Name (Val ℝ)} (hd : RowParams out.table k d) {s : GState ℝ} (hs : restored d = .ok s) (i : Nat) (hi : i < (lightcurve out.nested k "mjd".toList).length) :
    ∃ (j : Nat) (a : SurveyArg) (t x : ℝ) (f : Name), args[j]? = some a ∧ (lightcurve out.nested k "survey_idx".toList)[i]? = some (.survey j) ∧
      (lightcurve out.nested k "mjd".toList)[i]? = some (.num t) ∧ (lightcurve out.nested k "filter".toList)[i]? = some (.text f) ∧
      (lightcurve out.nested k "flux_perfect".toList)[i]? = some (.num x) ∧
      ∀ w2 : σ, askPhys mk noKw out.graph root objs (.group a.group) [t] (some [f]) (some s) w2 = .ok (out.graph, .one [x], w2) := by
  obtain ⟨hf, hn, l, hl, rfl⟩ := row_dict hG hph hstd h
  obtain ⟨s', e1, e2, e3⟩ := sample_exact hf (k := k)
  have hkn : k < out.sampled.numSamples := by omega
  obtain ⟨l', q1, q2⟩ := hd
  rw [hl] at q1
  cases q1
  rw [List.getElem?_map, List.getElem?_range hkn] at q2
  simp only [Option.map_some, Option.some.injEq, RCell.dict.injEq] at q2
  subst q2
  rw [e1] at hs
  cases hs
  obtain ⟨run, nd, table, states, res, table', _, hsp, hsm, hnd, hp, hsim, hnest, hno, hfr⟩ := run_parts h
  obtain ⟨hsh, hall⟩ := base_parts hG hph hsp hnd
  obtain ⟨ra, dec, t0, z, samples, ss, ora, odec, ot0, hra, hdec, ht0, hz, hsamp, htb, hss, hora, hodec, hot0, ⟨l1, l2, l3⟩, rfl⟩ := prepare_parts hp
  rw [iterate_ok run.gs hsh] at hsamp
  cases hsamp
  obtain ⟨m1, m2⟩ := mapM_get _ _ hss
  have hlen : ss.length = run.gs.numSamples := by rw [m1]; simp
  rw [hsm] at hkn e2 hn
  obtain ⟨st, b1, b2⟩ := m2 k (sampleOf run.gs k) (by rw [List.getElem?_map, List.getElem?_range hkn]; rfl)
  have hoc : ora.length = run.gs.numSamples ∧ odec.length = run.gs.numSamples ∧ ot0.length = run.gs.numSamples := ⟨by omega, by omega, by omega⟩
  obtain ⟨s1, s2⟩ := simStates_get ss ora odec ot0 (by omega) (by omega) (by omega)
  obtain ⟨so, hso⟩ : ∃ so, (simStates ss ora odec ot0)[k]? = some so := ⟨_, List.getElem?_eq_getElem (by omega)⟩
  have hst : so.state = st := by
    have := (s2 k so hso).1
    rw [b1] at this
    exact (Option.some.inj this).symm
  have hsz : EndToEndProps.Sized (fun a => evalPhys (mk out.graph nd) noKw a.group) := by
    intro a ts fs st r p r' hev
    obtain ⟨hfl, hev⟩ := evalPhys_single hev
    exact (hone nd hnd a.group st ts fs r p r' hfl hev).2.1
  have hobs : ∀ s ∈ simStates ss ora odec ot0, ∀ a ∈ args, Fluxes (evalPhys (mk out.graph nd) noKw a.group) s.state
      ((fun (a : SurveyArg) (st : SState ℝ) (f : Name) (t x : ℝ) => ∀ r : σ, PhysModel.bandfluxesSingle noKw a.group [t] [f] st (mk out.graph nd) r = .ok ([x], r)) a s.state) := by
    intro s0 _ a _ ts fs r p r' hev
    obtain ⟨hfl, hev⟩ := evalPhys_single hev
    obtain ⟨c0, c1, c2⟩ := hone nd hnd a.group s0.state ts fs r p r' hfl hev
    exact ⟨c0, c1, hfl, c2⟩
  obtain ⟨_, _, _, _, hw, hmeas⟩ := EndToEndProps.C110_fluxes hsz
    (fun (a : SurveyArg) (st : SState ℝ) (f : Name) (t x : ℝ) => ∀ r : σ, PhysModel.bandfluxesSingle noKw a.group [t] [f] st (mk out.graph nd) r = .ok ([x], r)) hne hobs hbuilt hrad hsave hsim
  obtain ⟨ra', dec', obs, _, _, _, _, _, hcol, hrows⟩ := hmeas k so hso
  rw [hnest] at hi ⊢
  rw [hcol "mjd".toList (by decide)] at hi
  obtain ⟨a, ha, t, f, x, noise, err, _, _, hP, _, _, _, _, c1, c2, c3, _, _, c6⟩ := hrows i obs[i].1 obs[i].2 (List.getElem?_eq_getElem hi)
  refine ⟨obs[i].1, a, t, x, f, ha, c6, c1, c2, c3, fun w2 => ?_⟩
  rw [ask_iff mk noKw hnd]
  refine ⟨rfl, a.group, [f], rfl, rfl, ?_⟩
  refine eachState_single e3 (by rw [e2]; exact b2) ?_
  rw [← hst]
  exact hP w2

/-! ### Which models do -/

/-- C144: the constant dimming treats band fluxes one by one. -/
theorem C144_dimming (setter : V) (rest : Bool) (p : Params ℝ) : EffectOneByOne (constantDimming setter rest : Effect V R ℝ) p := by
  intro ts fs r a out r' _ hl h
  unfold constantDimming at h ⊢
  dsimp only at h ⊢
  cases hf : fluxFraction p with
  | error e => rw [hf] at h; cases h
  | ok c =>
    rw [hf] at h
    cases h
    refine ⟨rfl, by simpa using hl, fun i t f x y _ _ hx hy r2 => ?_⟩
    rw [List.getElem?_map, hx] at hy
    cases hy
    rfl

/-- C144: so does a static bandflux model. -/
theorem C144_static (node : Name) (bands : List (Dict Name ℝ)) (st : SState ℝ) :
    OneByOne fun ts fs (r : R) => (staticBandModel node bands : BandModel V R ℝ).computeBandflux ts fs st r := by
  intro ts fs r out r' hl h
  unfold staticBandModel at h ⊢
  dsimp only at h ⊢
  cases hs : selectedIdx st node bands.length with
  | error e => rw [hs] at h; cases h
  | ok i =>
    rw [hs] at h
    dsimp only at h ⊢
    cases hv : bands[i]? with
    | none => rw [hv] at h; cases h
    | some values =>
      rw [hv] at h
      dsimp only at h ⊢
      have hk : ∀ f ∈ npUnique fs, ∃ v, values.get? f = some v := by
        intro f hf
        cases hg : values.get? f with
        | none => rw [BasicProps.fill_missing values fs _ _ f hf hg] at h; cases h
        | some v => exact ⟨v, rfl⟩
      obtain ⟨res, h1, h2, h3, -⟩ := BasicProps.fill_spec values fs (npUnique fs) (ts.map fun _ => 0) (by simp [hl]) hk
      rw [h1] at h
      cases h
      refine ⟨rfl, by omega, fun j t f x _ hf hx r2 => ?_⟩
      have hmem : f ∈ npUnique fs := (BandfluxProps.mem_npUnique _ _).2 (List.mem_of_getElem? hf)
      obtain ⟨v, hv'⟩ := hk f hmem
      have := h3 j f hf hmem v hv'
      rw [hx] at this
      cases this
      have hu : npUnique [f] = [f] := by simp [npUnique]
      rw [hu]
      simp [fillBands, hv']

/-- The star of C126's example treats observations one by one in every state. -/
theorem star_oneByOne (g : PassbandGroup ℝ) (st : SState ℝ) : ModelOneByOne () g st (.sed CompositeProps.star : PhysModel Unit Unit Nat ℝ) := by
  refine (C144_parts (V := Unit) (R := Nat) () g st).1 _ ?_ (by intro ex h; cases h) (by intro e he; cases he)
  intro kw ws
  exact Or.inl ⟨fun _ => ws.map fun _ => 5, fun _ => by simp, fun ts => rfl⟩

/-- So does the dimmed lamp. -/
theorem lamp_oneByOne (g : PassbandGroup ℝ) (st : SState ℝ) : ModelOneByOne () g st (.band CompositeProps.lamp : PhysModel Unit Unit Nat ℝ) := by
  refine (C144_parts (V := Unit) (R := Nat) () g st).2.1 _ ?_ ?_
  · intro ts fs r out r' hl h
    cases h
    refine ⟨rfl, by simp, fun i t f x ht _ hx r2 => ?_⟩
    rw [List.getElem?_map, ht] at hx
    cases hx
    rfl
  · intro e he p
    have : e = constantDimming () false := by simpa [CompositeProps.lamp] using he
    subst this
    exact C144_dimming () false p

/-- So does the pair. -/
theorem pair_oneByOne (g : PassbandGroup ℝ) (st : SState ℝ) : ModelOneByOne () g st CompositeProps.pair := by
  refine (C144_parts (V := Unit) (R := Nat) () g st).2.2.1 _ _ _ _ _ ?_ (by intro e he; cases he)
  intro o ho
  simp only [List.mem_cons, List.not_mem_nil, or_false] at ho
  rcases ho with rfl | rfl
  · exact star_oneByOne g st
  · exact lamp_oneByOne g st

/-- The run of C126's example: two samples of the pair in one LSST visit. -/
theorem pair_run (draw : Nat → ℝ × Nat) : (GraphOK (ConstGraph.before [CompositeProps.sumConsts, CompositeProps.starConsts, CompositeProps.lampConsts] : Heap ℝ Nat)) ∧
    Physical (ConstGraph.before [CompositeProps.sumConsts, CompositeProps.starConsts, CompositeProps.lampConsts] : Heap ℝ Nat) 0 ∧ ∃ out : Outcome Nat,
    simulatePhys (fun _ _ => CompositeProps.pair) false () draw (ConstGraph.before [CompositeProps.sumConsts, CompositeProps.starConsts, CompositeProps.lampConsts]) 0 [1, 2] 2
      [EndToEndProps.lsstArg] [] [] (some [some 1, none]) 4 = .ok out := by
  have hn : ∀ q ∈ [CompositeProps.sumConsts, CompositeProps.starConsts, CompositeProps.lampConsts], (q.2.map (·.1)).Nodup := by
    intro q hq
    simp only [List.mem_cons, List.not_mem_nil, or_false] at hq
    rcases hq with rfl | rfl | rfl
    · simp only [CompositeProps.sumConsts, List.map_cons, List.map_nil]; decide
    · simp only [CompositeProps.starConsts, List.map_cons, List.map_nil]; decide
    · simp only [CompositeProps.lampConsts, List.map_cons, List.map_nil]; decide
  have hE : ConstGraph.Enough CompositeProps.sumConsts.2 := by
    intro p hp
    simp only [List.mem_cons, List.not_mem_nil, or_false] at hp
    rcases hp with rfl | rfl | rfl | rfl
    exacts [⟨0, by simp [CompositeProps.sumConsts]⟩, ⟨0, by simp [CompositeProps.sumConsts]⟩, ⟨3, by simp [CompositeProps.sumConsts]⟩, ⟨1, by simp [CompositeProps.sumConsts]⟩]
  obtain ⟨hph, out, ho, hgr, hg0, hval⟩ := ConstGraph.g_run hn CompositeProps.pair_sampled hE draw (isBand := false) (ev := fun _ _ a => evalPhys CompositeProps.pair () a.group)
    (fun st hst => CompositeProps.answers_emits (CompositeProps.pair_emits st hst) (by
      intro f t hf
      rw [List.mem_singleton] at hf
      subst hf
      rw [CompositeProps.g_integral]
      norm_num))
  exact ⟨ConstGraph.g_graph hn, hph, out, ho⟩

/-- It meets the hypotheses of `C144_flux`. -/
example (draw : Nat → ℝ × Nat) : ∃ out : Outcome Nat,
    simulatePhys (fun _ _ => CompositeProps.pair) false () draw (ConstGraph.before [CompositeProps.sumConsts, CompositeProps.starConsts, CompositeProps.lampConsts]) 0 [1, 2] 2
      [EndToEndProps.lsstArg] [] [] (some [some 1, none]) 4 = .ok out ∧
    ∀ (d : Dict Name (Val ℝ)) (s : GState ℝ), RowParams out.table 0 d → restored d = .ok s → ∀ i, i < (lightcurve out.nested 0 "mjd".toList).length →
      ∃ (t x : ℝ) (f : Name), (lightcurve out.nested 0 "mjd".toList)[i]? = some (.num t) ∧ (lightcurve out.nested 0 "flux_perfect".toList)[i]? = some (.num x) ∧
        ∃ a : SurveyArg, ∀ w2 : Nat, askPhys (fun _ _ => CompositeProps.pair) () out.graph 0 [1, 2] (.group a.group) [t] (some [f]) (some s) w2 = .ok (out.graph, .one [x], w2) := by
  obtain ⟨hG, hph, out, ho⟩ := pair_run draw
  refine ⟨out, ho, fun d s hd hs i hi => ?_⟩
  obtain ⟨j, a, t, x, f, -, -, h1, -, h2, h3⟩ := C144_flux (fun _ _ => CompositeProps.pair) (isBand := false) () hG hph (by intro c hc; cases hc) (by simp)
    (by intro a ha; rw [List.mem_singleton] at ha; subst ha; exact EndToEndProps.lsst_built)
    (by intro a ha; rw [List.mem_singleton] at ha; subst ha; exact ⟨1, rfl, by norm_num, by norm_num⟩) (by simp) ho (fun _ _ g st => pair_oneByOne g st) 0 (by norm_num) hd hs i hi
  exact ⟨t, x, f, h1, h2, a, h3⟩

end LCL.AskAnyProps
