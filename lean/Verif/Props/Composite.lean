import Verif.Spec.Composite
import Verif.Props.MultiObject
import Verif.Props.FullRun
import Verif.Props.ConstGraph
import Verif.Model.CompositeRun
import Verif.Props.Microlensing
import Verif.Props.Dimming

/-!
# Property C126: surveys of any physical model
-/

namespace LCL.CompositeProps
open LCL LCL.SimSpec LCL.PhysSpec LCL.CompositeSpec LCL.LensProps LCL.EffectLib LCL.EndToEnd LCL.EndToEndSpec LCL.FullRun LCL.FullRunSpec
variable {V W R : Type}

theorem applied_factors {p : Params ℝ} (c : Effect V R ℝ → Name → ℝ → ℝ) {ts : List ℝ} {fs : List Name} (hl : fs.length = ts.length) (r : R) :
    ∀ (es : List (Effect V R ℝ)) (B : Name → ℝ → ℝ), (∀ e ∈ es, ScalesBand e p (c e)) → ∀ out,
      (AppliedBand p ts fs es (List.zipWith B fs ts, r) out ↔ out = (List.zipWith (fun f t => factors c es f t * B f t) fs ts, r))
  | [], B, _, out => by
    have : List.zipWith (fun f t => factors c ([] : List (Effect V R ℝ)) f t * B f t) fs ts = List.zipWith B fs ts := by simp [factors]
    rw [this]
    constructor
    · intro h; cases h; rfl
    · rintro rfl; exact .nil _
  | e :: es, B, h, out => by
    have h1 := h e (by simp) ts fs r B hl
    have h2 := applied_factors c hl r es (fun f t => c e f t * B f t) (fun e' he' => h e' (by simp [he'])) out
    have e3 : (fun f t => factors c (e :: es) f t * B f t) = fun f t => factors c es f t * (c e f t * B f t) := by
      funext f t
      simp only [factors, List.map_cons, List.prod_cons]
      ring
    rw [e3, ← h2]
    constructor
    · intro hA
      cases hA with
      | cons a b => dsimp only at a; rw [h1] at a; cases a; exact b
    · intro hA; exact .cons h1 hA

theorem inOrder_values {β ω : Type} {eval : ω → R → Except Err (β × R)} : ∀ {os : List ω} {val : Nat → β} {r r' : R} {as : List β},
    (∀ (i : Nat) o, os[i]? = some o → ∀ r out, eval o r = .ok out → out = (val i, r)) → InOrder eval os r as r' → as = os.mapIdx (fun i _ => val i) ∧ r' = r
  | [], val, r, r', as, _, h => by cases h; simp
  | o :: os, val, r, r', as, hv, h => by
    cases h with
    | cons a b =>
      have h1 := hv 0 o rfl _ _ a
      obtain ⟨e1, e2⟩ := Prod.mk.inj h1
      obtain ⟨h2, h3⟩ := inOrder_values (os := os) (val := fun i => val (i + 1)) (fun i o' ho' => hv (i + 1) o' (by simpa using ho')) b
      refine ⟨?_, h3.trans e2⟩
      rw [e1, h2, List.mapIdx_cons]

theorem inOrder_exists {β ω : Type} {eval : ω → R → Except Err (β × R)} : ∀ {os : List ω} {val : Nat → β} {r : R},
    (∀ (i : Nat) o, os[i]? = some o → eval o r = .ok (val i, r)) → InOrder eval os r (os.mapIdx (fun i _ => val i)) r
  | [], val, r, _ => .nil _
  | o :: os, val, r, h => by
    rw [List.mapIdx_cons]
    exact .cons (h 0 o rfl) (inOrder_exists (val := fun i => val (i + 1)) fun i o' ho' => h (i + 1) o' (by simpa using ho'))

theorem zipWith_getD (B : Name → ℝ → ℝ) {fs : List Name} {ts : List ℝ} (hl : fs.length = ts.length) {j : Nat} (hj : j < ts.length) :
    (List.zipWith B fs ts).getD j 0 = B (fs[j]'(by omega)) ts[j] := by
  simp [List.getD_eq_getElem?_getD, hj, show j < fs.length by omega]

/-- The rows of the objects and their weighted sum. -/
theorem sum_rows {ω : Type} (objects : List ω) (weights : List ℝ) (hw : weights.length = objects.length) (B : Nat → Name → ℝ → ℝ) {fs : List Name} {ts : List ℝ}
    (hl : fs.length = ts.length) (total : List ℝ) (htot : total.length = ts.length) :
    (∀ j, total.getD j 0 = (List.zipWith (fun w (a : List ℝ) => w * a.getD j 0) weights (objects.mapIdx fun i _ => List.zipWith (B i) fs ts)).sum) ↔
      total = List.zipWith (fun f t => (weights.mapIdx fun i w => w * B i f t).sum) fs ts := by
  have hz : ∀ j, List.zipWith (fun w (a : List ℝ) => w * a.getD j 0) weights (objects.mapIdx fun i _ => List.zipWith (B i) fs ts) =
      weights.mapIdx fun i w => w * (List.zipWith (B i) fs ts).getD j 0 := by
    intro j
    refine List.ext_getElem (by simp [hw]) fun i h1 h2 => ?_
    simp
  have hrow : ∀ j, (List.zipWith (fun f t => (weights.mapIdx fun i w => w * B i f t).sum) fs ts).getD j 0 =
      (weights.mapIdx fun i w => w * (List.zipWith (B i) fs ts).getD j 0).sum := by
    intro j
    by_cases hj : j < ts.length
    · rw [zipWith_getD _ hl hj]
      congr 1
      refine List.ext_getElem (by simp) fun i h1 h2 => ?_
      simp only [List.getElem_mapIdx]
      rw [zipWith_getD _ hl hj]
    · have h0 : ∀ B' : Name → ℝ → ℝ, (List.zipWith B' fs ts).getD j 0 = 0 := by
        intro B'
        rw [List.getD_eq_getElem?_getD, List.getElem?_eq_none (by simp; omega)]
        rfl
      rw [h0]
      simp only [h0, mul_zero]
      symm
      refine List.sum_eq_zero fun x hx => ?_
      obtain ⟨i, _, rfl⟩ := List.mem_mapIdx.1 hx
      rfl
  constructor
  · intro h
    refine MultiProps.list_ext (by simp [htot, hl]) fun j => ?_
    rw [h j, hz, hrow]
  · rintro rfl j
    rw [hz, hrow]

/-- C126. Any physical model, of any nesting: asked for fluxes at any times in any filters, it gives exactly the flux of the specification for each, drawing no random
numbers, or fails; and it does not fail when every filter is known to all its parts. -/
theorem C126_flux {noKw : W} {g : PassbandGroup ℝ} {st : SState ℝ} {known : Name → Prop} {c : Effect V R ℝ → Name → ℝ → ℝ} {o : PhysModel V W R ℝ} {B : Name → ℝ → ℝ}
    (h : Emits noKw g st known c o B) (ts : List ℝ) (fs : List Name) (r : R) (hl : fs.length = ts.length) :
    (∀ out, PhysModel.bandfluxesSingle noKw g ts fs st o r = .ok out → out = (List.zipWith B fs ts, r)) ∧
    ((∀ f ∈ fs, known f) → ∃ out, PhysModel.bandfluxesSingle noKw g ts fs st o r = .ok out) := by
  induction h generalizing ts fs r with
  | @sed m H hobs hgrid hknown =>
    have hrun : ∀ p r', PhysModel.bandfluxesSingle noKw g ts fs st (.sed m) r = .ok (p, r') ↔ evalModel m noKw g ts fs st r = .ok (p, r') := by
      intro p r'
      rw [EndToEndProps.evalModel_iff, PhysModel.bandfluxesSingle]
      exact ⟨fun h => ⟨hl, h⟩, fun h => h.2⟩
    constructor
    · rintro ⟨p, r'⟩ h
      obtain ⟨h1, h2, -, h4⟩ := EndToEndProps.eval_values hobs hgrid ((hrun p r').1 h)
      rw [h1]
      congr 1
      refine List.ext_getElem (by simp [h2, hl]) fun i i1 i2 => ?_
      have it : i < ts.length := by omega
      obtain ⟨pb, e1, e2⟩ := h4 i ts[i] (fs[i]'(by omega)) (List.getElem?_eq_getElem it) (List.getElem?_eq_getElem (by omega))
      rw [List.getElem?_eq_getElem i1] at e2
      rw [Option.some.inj e2]
      simp [bandOf, e1]
    · intro hk
      obtain ⟨p, r1, h1⟩ := EndToEndProps.eval_succeeds hobs hl (fun f hf => hknown f (hk f hf)) r
      exact ⟨_, (hrun p r1).2 h1⟩
  | @band m p B hp hB he =>
    rw [PhysModel.bandfluxesSingle]
    unfold BandModel.evaluateBandfluxesSingle
    rw [(MultiProps.localParams_iff _ _ _).2 hp]
    dsimp only
    obtain ⟨b1, b2⟩ := hB ts fs r hl
    constructor
    · intro out h
      cases hc : m.computeBandflux ts fs st r with
      | error e => rw [hc] at h; cases h
      | ok q =>
        rw [hc, b1 q hc] at h
        exact (applied_factors c hl r m.effects B he out).1 ((MultiProps.applyBandEffects_iff _ _ _ _ _ _ _).1 h)
    · intro hk
      obtain ⟨q, hc⟩ := b2 hk
      rw [hc, b1 q hc]
      exact ⟨_, (MultiProps.applyBandEffects_iff _ _ _ _ _ _ _).2 ((applied_factors c hl r m.effects B he _).2 rfl)⟩
  | @additive node setters objects weights effects p B hp hw ho he ih =>
    have hrows : ∀ {rows : List (List ℝ)} {r' : R}, InOrder (PhysModel.bandfluxesSingle noKw g ts fs st) objects r rows r' →
        rows = objects.mapIdx (fun i _ => List.zipWith (B i) fs ts) ∧ r' = r :=
      fun h => inOrder_values (fun i o hio r out hout => (ih i o hio ts fs r hl).1 out hout) h
    constructor
    · intro out h
      obtain ⟨rows, r', p', total, h1, h2, h3, h4, h5, h6⟩ := (MultiProps.C35_sum_bandflux noKw g ts fs st node setters objects weights effects r out hw).1 h
      rw [hp] at h5; cases h5
      obtain ⟨rfl, rfl⟩ := hrows h1
      rw [(sum_rows objects weights hw B hl total h3).1 h4] at h6
      exact (applied_factors c hl _ effects _ he out).1 h6
    · intro hk
      have hin : InOrder (PhysModel.bandfluxesSingle noKw g ts fs st) objects r (objects.mapIdx fun i _ => List.zipWith (B i) fs ts) r := by
        refine inOrder_exists fun i o hio => ?_
        obtain ⟨out, hout⟩ := (ih i o hio ts fs r hl).2 hk
        rw [hout, (ih i o hio ts fs r hl).1 out hout]
      refine ⟨_, (MultiProps.C35_sum_bandflux noKw g ts fs st node setters objects weights effects r _ hw).2 ⟨_, r, p, _, hin, ?_, ?_,
        (sum_rows objects weights hw B hl _ (by simp [hl])).2 rfl, hp, (applied_factors c hl r effects _ he _).2 rfl⟩⟩
      · intro a ha
        obtain ⟨i, _, rfl⟩ := List.mem_mapIdx.1 ha
        simp [hl]
      · simp [hl]
  | @random node setters objects names effects p i n o B hp hsel hnd hn ho hB he ih =>
    have hs : PhysModel.selected st node = some n := by unfold PhysModel.selected; rw [hp]; dsimp only; rw [hsel]
    rw [PhysModel.bandfluxesSingle, hs]
    dsimp only
    rw [MultiProps.bandNamed_found noKw g ts fs st n o objects names i r hnd ho hn]
    obtain ⟨i1, i2⟩ := ih ts fs r hl
    constructor
    · intro out h
      cases hc : PhysModel.bandfluxesSingle noKw g ts fs st o r with
      | error e => rw [hc] at h; cases h
      | ok q =>
        rw [hc, i1 q hc] at h
        dsimp only at h
        rw [(MultiProps.localParams_iff _ _ _).2 hp] at h
        exact (applied_factors c hl r effects B he out).1 ((MultiProps.applyBandEffects_iff _ _ _ _ _ _ _).1 h)
    · intro hk
      obtain ⟨q, hc⟩ := i2 hk
      rw [hc, i1 q hc]
      dsimp only
      rw [(MultiProps.localParams_iff _ _ _).2 hp]
      exact ⟨_, (MultiProps.applyBandEffects_iff _ _ _ _ _ _ _).2 ((applied_factors c hl r effects B he _).2 rfl)⟩

/-! ### The effects of the library on band fluxes -/

/-- C126: a constant dimming scales band fluxes by the flux fraction. -/
theorem C126_dimming (s : V) (rest : Bool) {p : Params ℝ} {f : ℝ} (hf : p.get? "flux_fraction".toList = some (.num f)) :
    ScalesBand (constantDimming s rest : Effect V R ℝ) p (fun _ _ => f) := by
  intro ts fs r B _
  simp only [constantDimming, DimmingProps.fraction_num hf, List.map_zipWith, Except.ok.injEq, Prod.mk.injEq, and_true]
  congr 1
  funext a b
  exact mul_comm _ _

/-- C126: a lens scales band fluxes by the magnification at the time of each, in every filter alike, or leaves them. -/
theorem C126_lens {binary : ℝ → V} {always t0S u0S tES : V} {q : ℝ} {kwargs : Dict Name V} {e : Effect V R ℝ}
    (he : microlensing binary always t0S u0S tES q kwargs = .ok e) {p : Params ℝ} :
    (SwitchedOff p → ScalesBand e p fun _ _ => 1) ∧
    (SwitchedOn p → ∀ t0 u0 tE, Event p t0 u0 tE → ScalesBand e p fun _ t => pspl (Real.log u0) (Real.log tE) t0 t) := by
  obtain ⟨-, -, h2⟩ := lens_apply he
  refine ⟨fun hoff ts fs r B _ => ?_, fun hon t0 u0 tE hev ts fs r B hl => ?_⟩
  · rw [h2]
    unfold microlensingBand
    rw [if_neg (off_not hoff)]
    simp
  · rw [h2]
    unfold microlensingBand
    rw [if_pos (on_truthy hon), mags hev]
    dsimp only
    rw [if_pos (by simp [hl])]
    simp only [Except.ok.injEq, Prod.mk.injEq, and_true]
    refine List.ext_getElem (by simp [hl]) fun i h1 h3 => ?_
    simp [mul_comm]

/-! ### Whole runs -/

theorem evalPhys_iff (o : PhysModel V W R ℝ) (noKw : W) (g : PassbandGroup ℝ) (ts : List ℝ) (fs : List Name) (st : SState ℝ) (r : R) (out : List ℝ × R) :
    evalPhys o noKw g ts fs st r = .ok out ↔ fs.length = ts.length ∧ PhysModel.bandfluxesSingle noKw g ts fs st o r = .ok out := by
  unfold evalPhys evaluateBandfluxes
  simp only [BandArg.resolve, eachSample]
  by_cases hl : fs.length = ts.length
  · rw [if_neg (not_not.2 hl)]
    cases PhysModel.bandfluxesSingle noKw g ts fs st o r with
    | error e => simp
    | ok q => obtain ⟨a, b⟩ := q; simp [hl]
  · rw [if_pos hl]
    simp [hl]

theorem sized_of {noKw : W} {o : PhysModel V W R ℝ} (h : OnePerTime noKw o) : EndToEndProps.Sized (fun a => evalPhys o noKw a.group) := by
  intro a ts fs st r p r' hp
  exact h _ _ _ _ _ _ ((evalPhys_iff _ _ _ _ _ _ _ _).1 hp).2

theorem fluxes_emits {noKw : W} {g : PassbandGroup ℝ} {st : SState ℝ} {known : Name → Prop} {c : Effect V R ℝ → Name → ℝ → ℝ} {o : PhysModel V W R ℝ} {B : Name → ℝ → ℝ}
    (h : Emits noKw g st known c o B) : Fluxes (evalPhys o noKw g) st (fun f t x => x = B f t) := by
  intro ts fs r p r' hp
  obtain ⟨hl, h1⟩ := (evalPhys_iff _ _ _ _ _ _ _ _).1 hp
  obtain ⟨e1, e2⟩ := Prod.mk.inj ((C126_flux h ts fs r hl).1 _ h1)
  refine ⟨e2, by simp [e1, hl], hl, fun i t f x ht hf hx => ?_⟩
  rw [e1, List.getElem?_zipWith, hf, ht] at hx
  simpa using hx.symm

theorem answers_emits {noKw : W} {g : PassbandGroup ℝ} {st : SState ℝ} {F : List Name} {c : Effect V R ℝ → Name → ℝ → ℝ} {o : PhysModel V W R ℝ} {B : Name → ℝ → ℝ}
    (h : Emits noKw g st (· ∈ F) c o B) (hpos : ∀ f t, f ∈ F → 0 ≤ B f t) : EndToEndProps.Answers (evalPhys o noKw g) st F := by
  intro ts fs r hl hfs
  obtain ⟨out, ho⟩ := (C126_flux h ts fs r hl).2 hfs
  have := (C126_flux h ts fs r hl).1 out ho
  subst this
  refine ⟨_, (evalPhys_iff _ _ _ _ _ _ _ _).2 ⟨hl, ho⟩, by simp [hl], fun x hx => ?_⟩
  obtain ⟨i, hi, rfl⟩ := List.getElem_of_mem hx
  rw [List.getElem_zipWith]
  exact hpos _ _ (hfs _ (List.getElem_mem _))

theorem applied_length {p : Params ℝ} {ts : List ℝ} {fs : List Name} : ∀ {es : List (Effect V R ℝ)} {x y : List ℝ × R},
    (∀ e ∈ es, ∀ p ts fs r a out, e.applyBand p ts fs r a = .ok out → out.1.length = a.length) → AppliedBand p ts fs es x y → y.1.length = x.1.length := by
  intro es x y hes hA
  induction hA with
  | nil => rfl
  | cons a b ih => rw [ih (fun e he => hes e (List.mem_cons_of_mem _ he)), hes _ (by simp) _ _ _ _ _ _ a]

theorem bandNamed_some {noKw : W} {g : PassbandGroup ℝ} {ts : List ℝ} {fs : List Name} {st : SState ℝ} {name : Name} :
    ∀ (os : List (PhysModel V W R ℝ)) (ns : List Name) (r : R) {res}, PhysModel.bandNamed noKw g ts fs st name os ns r = some res →
      ∃ o ∈ os, res = PhysModel.bandfluxesSingle noKw g ts fs st o r
  | [], _, _, _, h => by rw [PhysModel.bandNamed] at h; cases h
  | _ :: _, [], _, _, h => by rw [PhysModel.bandNamed] at h; cases h
  | o :: os, n :: ns, r, res, h => by
    rw [PhysModel.bandNamed] at h
    split at h
    · rename_i res' hr
      cases h
      obtain ⟨o', h1, h2⟩ := bandNamed_some os ns r hr
      exact ⟨o', List.mem_cons_of_mem _ h1, h2⟩
    · split at h
      · cases h; exact ⟨o, by simp, rfl⟩
      · cases h

/-- C126: what gives one flux per time: every SED model; a bandflux model whose computation and effects do; every additive model whose effects do; a random model of
objects that do, whose effects do. -/
theorem C126_sizes (noKw : W) :
    (∀ m : SEDModel V W R ℝ, OnePerTime noKw (.sed m)) ∧
    (∀ m : BandModel V R ℝ, (∀ ts fs st r out, m.evaluateBandfluxesSingle ts fs st r = .ok out → out.1.length = ts.length) → OnePerTime noKw (.band m : PhysModel V W R ℝ)) ∧
    (∀ node setters (objects : List (PhysModel V W R ℝ)) weights (effects : List (Effect V R ℝ)), weights.length = objects.length →
      (∀ e ∈ effects, ∀ p ts fs r a out, e.applyBand p ts fs r a = .ok out → out.1.length = a.length) → OnePerTime noKw (.additive node setters objects weights effects)) ∧
    (∀ node setters (objects : List (PhysModel V W R ℝ)) names (effects : List (Effect V R ℝ)), (∀ o ∈ objects, OnePerTime noKw o) →
      (∀ e ∈ effects, ∀ p ts fs r a out, e.applyBand p ts fs r a = .ok out → out.1.length = a.length) → OnePerTime noKw (.random node setters objects names effects)) := by
  refine ⟨?_, ?_, ?_, ?_⟩
  · intro m g ts fs st r out h
    rw [PhysModel.bandfluxesSingle] at h
    have := EndToEndProps.loop_length _ _ _ _ _ _ _ _ h
    simpa using this
  · intro m hm g ts fs st r out h
    rw [PhysModel.bandfluxesSingle] at h
    exact hm _ _ _ _ _ h
  · intro node setters objects weights effects hw he g ts fs st r out h
    obtain ⟨rows, r', p, total, -, -, h3, -, -, h6⟩ := (MultiProps.C35_sum_bandflux noKw g ts fs st node setters objects weights effects r out hw).1 h
    rw [applied_length he h6, h3]
  · intro node setters objects names effects hos he g ts fs st r out h
    rw [PhysModel.bandfluxesSingle] at h
    split at h
    · cases h
    · split at h
      · cases h
      · cases h
      · rename_i a r' hb
        obtain ⟨o, hmem, ho⟩ := bandNamed_some _ _ _ hb
        split at h
        · cases h
        · rename_i p hp
          rw [applied_length he ((MultiProps.applyBandEffects_iff _ _ _ _ _ _ _).1 h)]
          exact hos o hmem _ _ _ _ _ _ ho.symm

/-- C126, given states. The simulation of any physical model in any surveys records, for every object and matching observation, exactly the flux of the specification
in the object's state, with that row's conditions and the next random number. A composite of any nesting is covered, also random mixtures. -/
theorem C126_states {noKw : W} {o : PhysModel V W R ℝ} (ho : OnePerTime noKw o) {draw : R → ℝ × R} {states : List SimState} {args : List SurveyArg} {saveCols : List Name}
    {offset : Option (List (Option ℝ))} {r r' : R} {res : SimResult} (known : Name → Prop) (c : SState ℝ → Effect V R ℝ → Name → ℝ → ℝ)
    (B : SurveyArg → SState ℝ → Name → ℝ → ℝ) (hne : args ≠ []) (hB : ∀ s ∈ states, ∀ a ∈ args, Emits noKw a.group s.state known (c s.state) o (B a s.state))
    (hbuilt : ∀ a ∈ args, ObsSpec.Built a.table) (hrad : ∀ a ∈ args, ∃ rad, a.table.radius = some rad ∧ 0 ≤ rad ∧ rad ≤ 180)
    (hsave : saveCols.Nodup ∧ ∀ c ∈ saveCols, c ∉ baseCols)
    (h : simulatePhysStates o noKw draw states args saveCols offset r = .ok (res, r')) :
    res.nobs.length = states.length ∧ r' = PhotSpec.afterDraws draw r res.nobs.sum ∧
    ∀ (k : Nat) (s : SimState), states[k]? = some s → ∃ (ra dec : ℝ) (obs : List (Nat × Nat)), s.ra = some ra ∧ s.dec = some dec ∧
      res.nobs[k]? = some obs.length ∧ obs.Pairwise (fun x y => x.1 < y.1 ∨ x.1 = y.1 ∧ x.2 < y.2) ∧
      (∀ j q, (j, q) ∈ obs ↔ ∃ a rad, args[j]? = some a ∧ a.table.radius = some rad ∧
        ObsSpec.Match a.table (ra, dec) rad (winLo offset s.t0) (winHi offset s.t0) q) ∧
      (∀ c ∈ baseCols, (lightcurve res.nested k c).length = obs.length) ∧
      ∀ (i j q : Nat), obs[i]? = some (j, q) → ∃ a, args[j]? = some a ∧
        MeasuredBy a j q (fun f t x => x = B a s.state f t) (PhotSpec.drawAt draw r ((res.nobs.take k).sum + i)) (lightcurve res.nested k) i := by
  obtain ⟨-, -, -, h4, h5, h6⟩ := EndToEndProps.C110_fluxes (sized_of ho) (fun a st f t x => x = B a st f t) hne (fun s hs a ha => fluxes_emits (hB s hs a ha)) hbuilt hrad hsave h
  exact ⟨h4, h5, h6⟩

/-- C126, the whole run: sampling the graph of the model (and of the objects of a composite) and simulating records, in row `k` and for every matching observation, exactly
the flux of the specification in sample `k`. -/
theorem C126_survey {σ : Type} {mk : Heap ℝ σ → PNode ℝ σ → PhysModel V W σ ℝ} {isBand : Bool} {noKw : W} {draw : σ → ℝ × σ} {H : Heap ℝ σ} (hG : NodeSpec.GraphOK H)
    {root : NodeId} {objs : List NodeId} (hph : Physical H root) {n : Int} {args : List SurveyArg} {saveCols paramCols : List Name} {offset : Option (List (Option ℝ))} {w : σ}
    {out : Outcome σ} (known : Name → Prop) (c : SState ℝ → Effect V σ ℝ → Name → ℝ → ℝ) (B : SurveyArg → SState ℝ → Name → ℝ → ℝ)
    (hstd : ∀ c ∈ paramCols, colName c ∉ standardCols) (hne : args ≠ []) (hbuilt : ∀ a ∈ args, ObsSpec.Built a.table)
    (hrad : ∀ a ∈ args, ∃ rad, a.table.radius = some rad ∧ 0 ≤ rad ∧ rad ≤ 180) (hsave : saveCols.Nodup ∧ ∀ c ∈ saveCols, c ∉ baseCols)
    (h : simulatePhys mk isBand noKw draw H root objs n args saveCols paramCols offset w = .ok out)
    {nd : PNode ℝ σ} (hnd : out.graph[root]? = some nd) (hone : OnePerTime noKw (mk out.graph nd))
    (hB : ∀ st (k : Nat) a, (k : Int) < n → StateOf out.sampled k st → a ∈ args → Emits noKw a.group st known (c st) (mk out.graph nd) (B a st)) :
    ∃ (N : Nat) (w0 : σ) (nobs : List Nat), n = (N : Int) ∧ (∃ run, Heap.sampleParameters H root objs none n w = .ok (out.graph, run) ∧ run.gs = out.sampled ∧ run.world = w0) ∧
      nobs.length = N ∧ IsColumn out.table "nobs" N (fun k => nobs[k]?.map .int) ∧ out.world = PhotSpec.afterDraws draw w0 nobs.sum ∧
      ∀ k, k < N → ∃ (st : SState ℝ) (ra dec : ℝ) (t0 : Option ℝ) (obs : List (Nat × Nat)), StateOf out.sampled k st ∧
        sampleValue out.sampled nd.str "ra".toList k = some (.scalar ra) ∧ sampleValue out.sampled nd.str "dec".toList k = some (.scalar dec) ∧
        sampleValue out.sampled nd.str "t0".toList k = some (cellOf t0) ∧
        nobs[k]? = some obs.length ∧ obs.Pairwise (fun x y => x.1 < y.1 ∨ x.1 = y.1 ∧ x.2 < y.2) ∧
        (∀ j q, (j, q) ∈ obs ↔ ∃ a rad, args[j]? = some a ∧ a.table.radius = some rad ∧
          ObsSpec.Match a.table (ra, dec) rad (winLo offset t0) (winHi offset t0) q) ∧
        (∀ c ∈ baseCols, (lightcurve out.nested k c).length = obs.length) ∧
        ∀ (i j q : Nat), obs[i]? = some (j, q) → ∃ a, args[j]? = some a ∧
          MeasuredBy a j q (fun f t x => x = B a st f t) (PhotSpec.drawAt draw w0 ((nobs.take k).sum + i)) (lightcurve out.nested k) i := by
  obtain ⟨nd', N, w0, nobs, g1, g2, ⟨run, g3, g3'⟩, g4, g5, g6, g7⟩ := FullRunProps.C119_fluxes hG hph (fun a st f t x => x = B a st f t) hstd hne hbuilt hrad hsave h
    (fun nd' h' => by rw [hnd] at h'; cases h'; exact sized_of hone)
    (fun nd' st k a h' hk hst ha => by rw [hnd] at h'; cases h'; exact fluxes_emits (hB st k a hk hst ha))
  rw [hnd] at g1; cases g1
  obtain ⟨-, -, run', h1, h2, -⟩ := FullRunProps.C119_sampled hG h
  have : run' = run := by rw [g3] at h1; exact (Prod.mk.inj (Except.ok.inj h1)).2.symm
  subst this
  exact ⟨N, w0, nobs, g2, ⟨_, g3, h2, g3'⟩, g4, g5, g6, g7⟩

/-! ### A concrete run: two of a redshifted star and three of a dimmed lamp -/

noncomputable def star : SEDModel Unit Unit Nat ℝ := { EndToEndProps.constModel with nodeString := "star".toList }

noncomputable def lamp : BandModel Unit Nat ℝ := ⟨"lamp".toList, [], fun ts _ _ r => .ok (ts.map fun _ => 7, r), [constantDimming () false]⟩

noncomputable def pair : PhysModel Unit Unit Nat ℝ := .additive "sum".toList [] [.sed star, .band lamp] [2, 3] []

noncomputable def sumConsts : Name × List (Name × ℝ) := ("sum".toList, [("ra".toList, 0), ("dec".toList, 0), ("redshift".toList, 1), ("t0".toList, 3)])
noncomputable def starConsts : Name × List (Name × ℝ) := ("star".toList, [("redshift".toList, 1), ("t0".toList, 3)])
noncomputable def lampConsts : Name × List (Name × ℝ) := ("lamp".toList, [("flux_fraction".toList, 0.5)])

theorem pair_sampled : ConstGraph.AllSampled [sumConsts, starConsts, lampConsts] [1, 2] := by
  refine ⟨_, rfl, rfl, ?_, ?_⟩
  · intro q hq
    simp only [List.mem_cons, List.not_mem_nil, or_false] at hq
    rcases hq with rfl | rfl | rfl <;> rfl
  · intro e he
    replace he : e ∈ [("star".toList, ConstGraph.cParams starConsts.2), ("lamp".toList, ConstGraph.cParams lampConsts.2), ("sum".toList, ConstGraph.cParams sumConsts.2)] := he
    simp only [List.mem_cons, List.not_mem_nil, or_false] at he
    rcases he with rfl | rfl | rfl
    · exact ⟨starConsts, by simp, rfl⟩
    · exact ⟨lampConsts, by simp, rfl⟩
    · exact ⟨sumConsts, by simp, rfl⟩

theorem pair_size : OnePerTime () pair := by
  refine (C126_sizes ()).2.2.1 _ _ _ _ _ rfl ?_
  intro e he; cases he

theorem g_integral : bandOf EndToEndProps.gGroup (fun _ _ => 10) "g".toList = fun _ => 10 := by
  funext t
  have : EndToEndProps.gGroup.getItem "g".toList = .ok EndToEndProps.gBand := rfl
  unfold bandOf
  rw [this]
  dsimp only
  unfold bandIntegral
  simp [EndToEndProps.gBand, PassbandSpec.area]
  norm_num

/-- What the pair emits in a state with the constants. -/
theorem pair_emits (st : SState ℝ) (h : ∀ q ∈ [sumConsts, starConsts, lampConsts], ∀ c ∈ q.2, (st.get? q.1).bind (·.get? c.1) = some (.num c.2)) :
    Emits () EndToEndProps.gGroup st (· ∈ ["g".toList]) (fun _ _ _ => 0.5) pair
      (fun f t => 2 * bandOf EndToEndProps.gGroup (fun _ _ => 10) f t + 3 * (0.5 * 7)) := by
  have hget : ∀ q ∈ [sumConsts, starConsts, lampConsts], ∃ p, st.get? q.1 = some p ∧ ∀ c ∈ q.2, p.get? c.1 = some (.num c.2) := by
    intro q hq
    have hne : ∃ c, c ∈ q.2 := by
      simp only [List.mem_cons, List.not_mem_nil, or_false] at hq
      rcases hq with rfl | rfl | rfl
      · exact ⟨_, List.mem_cons_self⟩
      · exact ⟨_, List.mem_cons_self⟩
      · exact ⟨_, List.mem_cons_self⟩
    obtain ⟨c0, hc0⟩ := hne
    have h0 := h q hq c0 hc0
    cases hp : st.get? q.1 with
    | none => rw [hp] at h0; cases h0
    | some p =>
      refine ⟨p, rfl, fun c hc => ?_⟩
      have := h q hq c hc
      rw [hp] at this
      exact this
  obtain ⟨p0, h0, -⟩ := hget sumConsts (by simp)
  obtain ⟨p1, h1, k1⟩ := hget starConsts (by simp)
  obtain ⟨p2, h2, k2⟩ := hget lampConsts (by simp)
  have hstar : Observes star () st (fun _ _ => 10) := by
    have := EndToEndProps.C110_redshifted (m := star) ⟨rfl, rfl⟩ () st p1 1 3 (fun _ _ => 5) (fun _ _ _ => 0)
      (by norm_num) (fun _ _ _ => rfl) (Or.inl ⟨rfl, rfl⟩) (by intro l h h1; cases h1) h1 rfl (k1 ("redshift".toList, 1) (by simp [starConsts]))
      (fun _ => k1 ("t0".toList, 3) (by simp [starConsts]))
    have e : (fun (t w : ℝ) => (1 + 1) * stretch (star.minwave st) (star.maxwave st) ((fun (_ _ : ℝ) => (5 : ℝ)) (3 + (t - 3) / (1 + 1))) (fun _ _ _ => 0) (w / (1 + 1))) =
        fun _ _ => (10 : ℝ) := by
      funext t w
      simp only [stretch, star, EndToEndProps.constModel, Option.filter_none]
      norm_num
    rw [e] at this
    exact this
  have hlamp : Emits () EndToEndProps.gGroup st (· ∈ ["g".toList]) (fun _ _ _ => 0.5) (.band lamp : PhysModel Unit Unit Nat ℝ)
      (fun f t => factors (fun _ _ _ => 0.5) lamp.effects f t * 7) := by
    refine .band (B := fun _ _ => 7) h2 ?_ ?_
    · intro ts fs r hl
      refine ⟨?_, fun _ => ⟨_, rfl⟩⟩
      intro out ho
      cases ho
      congr 1
      refine List.ext_getElem (by simp [hl]) fun i i1 i2 => by simp
    · intro e he
      have : e = constantDimming () false := by simpa [lamp] using he
      subst this
      exact C126_dimming () false (k2 ("flux_fraction".toList, 0.5) (by simp [lampConsts]))
  have hsum := Emits.additive (noKw := ()) (g := EndToEndProps.gGroup) (known := (· ∈ ["g".toList])) (c := fun _ _ _ => 0.5) (setters := []) (objects := [.sed star, .band lamp])
    (weights := [2, 3]) (effects := []) (B := fun i => match i with
      | 0 => bandOf EndToEndProps.gGroup (fun _ _ => 10)
      | _ => fun f t => factors (fun _ _ _ => 0.5) lamp.effects f t * 7) h0 rfl (by
      intro i o hio
      match i, hio with
      | 0, hio =>
        cases hio
        refine .sed (EndToEndProps.observes_in hstar _) EndToEndProps.gGroup_grid ?_
        intro f hf
        rw [List.mem_singleton] at hf
        subst hf
        exact ⟨_, rfl, EndToEndProps.gBand_good.nonempty⟩
      | 1, hio => cases hio; exact hlamp
      | i + 2, hio => cases hio) (by intro e he; cases he)
  have e : (fun (f : Name) (t : ℝ) => 2 * bandOf EndToEndProps.gGroup (fun _ _ => 10) f t + 3 * (0.5 * 7)) = fun f t =>
      factors (fun _ _ _ => 0.5) ([] : List (Effect Unit Nat ℝ)) f t * (([2, 3] : List ℝ).mapIdx fun i w => w * (match i with
      | 0 => bandOf EndToEndProps.gGroup (fun _ _ => 10)
      | _ => fun f t => factors (fun _ _ _ => 0.5) lamp.effects f t * 7) f t).sum := by
    funext f t
    simp [factors, lamp, List.mapIdx_cons]
  rw [e]
  exact hsum

/-- Two samples of the pair in one LSST visit: the run succeeds, and if the visit matches the position of the first, its perfect flux is 2 · 10 + 3 · 3.5. -/
example (draw : Nat → ℝ × Nat) : ∃ out : Outcome Nat,
    simulatePhys (fun _ _ => pair) false () draw (ConstGraph.before [sumConsts, starConsts, lampConsts]) 0 [1, 2] 2 [EndToEndProps.lsstArg] [] [] (some [some 1, none]) 4 = .ok out ∧
    ∃ (nobs : List Nat) (obs : List (Nat × Nat)), nobs[0]? = some obs.length ∧ ∀ (i j q : Nat), obs[i]? = some (j, q) →
      (lightcurve out.nested 0 "flux_perfect".toList)[i]? = some (.num (2 * 10 + 3 * (0.5 * 7))) := by
  have hn : ∀ q ∈ [sumConsts, starConsts, lampConsts], (q.2.map (·.1)).Nodup := by
    intro q hq
    simp only [List.mem_cons, List.not_mem_nil, or_false] at hq
    rcases hq with rfl | rfl | rfl
    · simp only [sumConsts, List.map_cons, List.map_nil]; decide
    · simp only [starConsts, List.map_cons, List.map_nil]; decide
    · simp only [lampConsts, List.map_cons, List.map_nil]; decide
  have hE : ConstGraph.Enough sumConsts.2 := by
    intro p hp
    simp only [List.mem_cons, List.not_mem_nil, or_false] at hp
    rcases hp with rfl | rfl | rfl | rfl
    exacts [⟨0, by simp [sumConsts]⟩, ⟨0, by simp [sumConsts]⟩, ⟨3, by simp [sumConsts]⟩, ⟨1, by simp [sumConsts]⟩]
  obtain ⟨hph, out, ho, hgr, hg0, hval⟩ := ConstGraph.g_run hn pair_sampled hE draw (isBand := false) (ev := fun _ _ a => evalPhys pair () a.group)
    (fun st hst => answers_emits (pair_emits st hst) (by
      intro f t hf
      rw [List.mem_singleton] at hf
      subst hf
      rw [g_integral]
      norm_num))
  refine ⟨out, ho, ?_⟩
  have hst : ∀ st (k : Nat), (k : Int) < 2 → StateOf out.sampled k st → ∀ q ∈ [sumConsts, starConsts, lampConsts], ∀ c ∈ q.2, (st.get? q.1).bind (·.get? c.1) = some (.num c.2) := by
    intro st k hk hso q hq c hc
    rw [hso q.1 c.1, hval q hq c hc k hk]
    rfl
  obtain ⟨N, w0, nobs, hN, -, -, -, -, hk⟩ := C126_survey (mk := fun _ _ => pair) (isBand := false) (noKw := ()) (ConstGraph.g_graph hn) hph (· ∈ ["g".toList])
    (fun _ _ _ _ => 0.5) (fun a _ f t => 2 * bandOf a.group (fun _ _ => 10) f t + 3 * (0.5 * 7)) (by intro c hc; cases hc) (by simp)
    (by intro a ha; rw [List.mem_singleton] at ha; subst ha; exact EndToEndProps.lsst_built)
    (by intro a ha; rw [List.mem_singleton] at ha; subst ha; exact ⟨1, rfl, by norm_num, by norm_num⟩) (by simp) ho hg0 pair_size
    (by intro st k a hk hso ha; rw [List.mem_singleton] at ha; subst ha; exact pair_emits st (hst st k hk hso))
  obtain ⟨st, ra, dec, t0, obs, -, -, -, -, h1, -, h2, -, h3⟩ := hk 0 (by omega)
  refine ⟨nobs, obs, h1, fun i j q hq => ?_⟩
  obtain ⟨a, ha, t, f, x, noise, err, m1, m2, m3, -, -, -, -, -, -, m4, -⟩ := h3 i j q hq
  have haj : a = EndToEndProps.lsstArg := List.mem_singleton.1 (List.mem_of_getElem? ha)
  subst haj
  have hf : f = "g".toList := by
    have e : EndToEndProps.lsstArg.table.getItem "filter".toList = .ok [.str "g".toList] := rfl
    unfold entryOf at m2
    rw [e] at m2
    match q, m2 with
    | 0, m2 => cases m2; rfl
    | q + 1, m2 => cases m2
  subst hf
  rw [m4, m3, show EndToEndProps.lsstArg.group = EndToEndProps.gGroup from rfl, g_integral]

/-! ### Nested composites are not sampled -/

/-- A composite whose only object is a composite of the lamp. -/
noncomputable def nested : PhysModel Unit Unit Nat ℝ := .additive "outer".toList [] [.additive "inner".toList [] [.band lamp] [1] []] [1] []

noncomputable def outerConsts : Name × List (Name × ℝ) := ("outer".toList, [("ra".toList, 0), ("dec".toList, 0), ("redshift".toList, 1), ("t0".toList, 3)])
noncomputable def innerConsts : Name × List (Name × ℝ) := ("inner".toList, [("redshift".toList, 1), ("t0".toList, 3)])

theorem nested_sampled : ∃ H' r, Heap.sampleParameters (ConstGraph.before [outerConsts, innerConsts, lampConsts]) 0 [1] none 2 (4 : Nat) = .ok (H', r) ∧
    r.gs.states = [("inner".toList, ConstGraph.cParams innerConsts.2), ("outer".toList, ConstGraph.cParams outerConsts.2)] ∧ ∃ nd, H'[0]? = some nd :=
  ⟨_, _, rfl, rfl, _, rfl⟩

/-- C126, the code disagrees: sampling a composite samples its objects but not the objects of its objects. The model of a composite of a composite of a bandflux
model with a dimming effect samples without an error, and then raises an error whenever it is evaluated in a sampled state, whatever the times and filters, although
every parameter of every object is set. -/
theorem C126_nested_counterexample : ∃ H' r, Heap.sampleParameters (ConstGraph.before [outerConsts, innerConsts, lampConsts]) 0 [1] none 2 (4 : Nat) = .ok (H', r) ∧
    ∀ (k : Nat) st, k < 2 → StateOf r.gs k st → ∀ g ts fs w, ∃ e, PhysModel.bandfluxesSingle () g ts fs st nested w = .error e := by
  obtain ⟨H', r, hs, hst, nd, hnd⟩ := nested_sampled
  refine ⟨H', r, hs, ?_⟩
  intro k st hk hso g ts fs w
  have hn : ∀ q ∈ [outerConsts, innerConsts, lampConsts], (q.2.map (·.1)).Nodup := by
    intro q hq
    simp only [List.mem_cons, List.not_mem_nil, or_false] at hq
    rcases hq with rfl | rfl | rfl
    · simp only [outerConsts, List.map_cons, List.map_nil]; decide
    · simp only [innerConsts, List.map_cons, List.map_nil]; decide
    · simp only [lampConsts, List.map_cons, List.map_nil]; decide
  have hph : Physical (ConstGraph.before [outerConsts, innerConsts, lampConsts]) 0 := by
    refine ⟨_, rfl, fun p hp => ?_⟩
    simp only [List.mem_cons, List.not_mem_nil, or_false] at hp
    rcases hp with rfl | rfl | rfl | rfl
    exacts [⟨_, List.mem_map.2 ⟨("ra".toList, 0), by simp [outerConsts], rfl⟩⟩, ⟨_, List.mem_map.2 ⟨("dec".toList, 0), by simp [outerConsts], rfl⟩⟩,
      ⟨_, List.mem_map.2 ⟨("t0".toList, 3), by simp [outerConsts], rfl⟩⟩, ⟨_, List.mem_map.2 ⟨("redshift".toList, 1), by simp [outerConsts], rfl⟩⟩]
  obtain ⟨hsh, -⟩ := FullRunProps.base_parts (ConstGraph.g_graph hn) hph hs hnd
  have hlook : GraphLemmas.look r.gs "lamp".toList "flux_fraction".toList = none := by
    unfold GraphLemmas.look
    rw [hst, Dict.get?_cons, if_neg (by decide), Dict.get?_cons, if_neg (by decide)]
    rfl
  have hnone : ∀ p, st.get? "lamp".toList = some p → p.get? "flux_fraction".toList = none := by
    intro p hp
    have := hso "lamp".toList "flux_fraction".toList
    rw [hp] at this
    refine this.trans ?_
    unfold sampleValue
    rw [GraphLemmas.read_eq_look _ hsh, hlook]
    split <;> rfl
  have hlamp : ∃ e, PhysModel.bandfluxesSingle () g ts fs st (.band lamp : PhysModel Unit Unit Nat ℝ) w = .error e := by
    rw [PhysModel.bandfluxesSingle]
    unfold BandModel.evaluateBandfluxesSingle
    cases hp : localParams st lamp.nodeString with
    | error e => exact ⟨e, rfl⟩
    | ok p =>
      have h1 := hnone p ((MultiProps.localParams_iff _ _ _).1 hp)
      simp only [lamp, applyBandEffects, constantDimming, fluxFraction, h1]
      exact ⟨_, rfl⟩
  obtain ⟨e, he⟩ := hlamp
  refine ⟨e, ?_⟩
  unfold nested
  rw [PhysModel.bandfluxesSingle, PhysModel.sumBand, PhysModel.bandfluxesSingle, PhysModel.sumBand, he]

end LCL.CompositeProps
