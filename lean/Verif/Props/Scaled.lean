import Verif.Spec.Scaled
import Verif.Props.ConstGraph
import Verif.Props.Extinction
import Verif.Props.Microlensing
import Verif.Props.Dimming

/-!
# Property C125: effects in a survey
-/

namespace LCL.ScaledProps
open LCL LCL.SimSpec LCL.PhysSpec LCL.ScaledSpec LCL.EffectLib LCL.LensProps LCL.EndToEnd LCL.EndToEndSpec LCL.FullRun LCL.FullRunSpec
variable {V W R : Type}

theorem applied_product {p : Params ℝ} {ws : List ℝ} (g : Effect V R ℝ → ℝ → ℝ → ℝ) (ts : List ℝ) (r : R) : ∀ (es : List (Effect V R ℝ)) (H : ℝ → ℝ → ℝ),
    (∀ e ∈ es, Scales e p ws (g e)) →
    Applied p ts ws es (ts.map fun t => ws.map (H t), r) (ts.map fun t => ws.map fun w => product g es t w * H t w, r)
  | [], H, _ => by
    have : (ts.map fun t => ws.map fun w => product g ([] : List (Effect V R ℝ)) t w * H t w) = ts.map fun t => ws.map (H t) := by simp [product]
    rw [this]
    exact .nil _
  | e :: es, H, h => by
    have h1 := h e (by simp) ts r H
    have h2 := applied_product g ts r es (fun t w => g e t w * H t w) (fun e' he' => h e' (by simp [he']))
    refine .cons h1 ?_
    have : (ts.map fun t => ws.map fun w => product g (e :: es) t w * H t w) = ts.map fun t => ws.map fun w => product g es t w * (g e t w * H t w) := by
      simp only [product, List.map_cons, List.prod_cons]
      refine List.map_congr_left fun t _ => List.map_congr_left fun w _ => ?_
      ring
    rw [this]
    exact h2

/-- C125. After any history of added effects that scale the flux, the observed spectrum is the product of: the observer-frame effects at the observed time and
wavelength; the factor 1+z; the rest-frame effects at the time and wavelength of the source's frame; and the source's own spectrum there. The order in which the
effects were added does not matter. -/
theorem C125_spectrum (m : SEDModel V W R ℝ) (hm : m.restEffects = [] ∧ m.obsEffects = []) (hist : List (Effect V R ℝ × Bool)) (noKw kw : W) (times waves : List ℝ)
    (st : SState ℝ) (r : R) (p : Params ℝ) (zs : Option (ℝ × ℝ)) (F : ℝ → ℝ → ℝ) (G : ℝ → ℝ → ℝ → ℝ) (g : Effect V R ℝ → ℝ → ℝ → ℝ)
    (hF : Pointwise m st F) (hG : (m.extrap = none ∧ G = fun _ _ _ => 0) ∨ ∃ ex, m.extrap = some ex ∧ PointwiseExt ex G)
    (hle : ∀ l h, m.minwave st = some l → m.maxwave st = some h → l ≤ h) (hne : waves ≠ []) (hp : st.get? m.nodeString = some p)
    (hz : Frame m.applyRedshift p zs) (hrest : ∀ e ∈ hist, e.1.restFrame = true → Scales e.1 p (waves.map (frameWave zs)) (g e.1))
    (hobs : ∀ e ∈ hist, e.1.restFrame = false → Scales e.1 p waves (g e.1)) :
    (hist.foldl (fun m e => m.addEffect e.1 e.2) m).evaluateSingle noKw times waves st r kw =
      .ok (times.map (fun t => waves.map (seen zs (product g ((hist.map (·.1)).filter (·.restFrame))) (product g ((hist.map (·.1)).filter (!·.restFrame)))
        (fun t => stretch (m.minwave st) (m.maxwave st) (F t) G) t)), r) := by
  rw [PhysicalProps.C33_order m hm]
  have h34 := ExtrapolationProps.C34_pointwise m noKw kw (times.map (frameTime zs)) (waves.map (frameWave zs)) st F G hF hG hle (by simpa using hne)
  refine ⟨p, zs, _, _, hp, hz, h34, applied_product g _ r _ (fun t => stretch (m.minwave st) (m.maxwave st) (F t) G) ?_, ?_⟩
  · intro e he
    obtain ⟨h1, h2⟩ := List.mem_filter.1 he
    obtain ⟨q, hq, rfl⟩ := List.mem_map.1 h1
    exact hrest q hq h2
  · have := applied_product g times r ((hist.map (·.1)).filter (!·.restFrame)) (p := p) (ws := waves)
      (fun t w => frameFactor zs * (product g ((hist.map (·.1)).filter (·.restFrame)) (frameTime zs t) (frameWave zs w) *
        stretch (m.minwave st) (m.maxwave st) (F (frameTime zs t)) G (frameWave zs w))) (by
      intro e he
      obtain ⟨h1, h2⟩ := List.mem_filter.1 he
      obtain ⟨q, hq, rfl⟩ := List.mem_map.1 h1
      exact hobs q hq (by simpa using h2))
    unfold seen
    have e : List.map (fun row => List.map (fun x => x * frameFactor zs) row)
        (List.map (fun t => List.map (fun w => product g ((hist.map (·.1)).filter (·.restFrame)) t w * stretch (m.minwave st) (m.maxwave st) (F t) G w)
          (waves.map (frameWave zs))) (times.map (frameTime zs))) =
        times.map fun t => waves.map fun w => frameFactor zs * (product g ((hist.map (·.1)).filter (·.restFrame)) (frameTime zs t) (frameWave zs w) *
          stretch (m.minwave st) (m.maxwave st) (F (frameTime zs t)) G (frameWave zs w)) := by
      simp only [List.map_map, Function.comp_def]
      refine List.map_congr_left fun t _ => List.map_congr_left fun w _ => ?_
      ring
    dsimp only
    rw [e]
    exact this

/-- C125: the order in which effects that scale the flux are added does not matter. -/
theorem C125_order (m : SEDModel V W R ℝ) (hm : m.restEffects = [] ∧ m.obsEffects = []) (hist hist' : List (Effect V R ℝ × Bool)) (hperm : hist'.Perm hist) (noKw kw : W)
    (times waves : List ℝ) (st : SState ℝ) (r : R) (p : Params ℝ) (zs : Option (ℝ × ℝ)) (F : ℝ → ℝ → ℝ) (G : ℝ → ℝ → ℝ → ℝ) (g : Effect V R ℝ → ℝ → ℝ → ℝ)
    (hF : Pointwise m st F) (hG : (m.extrap = none ∧ G = fun _ _ _ => 0) ∨ ∃ ex, m.extrap = some ex ∧ PointwiseExt ex G)
    (hle : ∀ l h, m.minwave st = some l → m.maxwave st = some h → l ≤ h) (hne : waves ≠ []) (hp : st.get? m.nodeString = some p)
    (hz : Frame m.applyRedshift p zs) (hrest : ∀ e ∈ hist, e.1.restFrame = true → Scales e.1 p (waves.map (frameWave zs)) (g e.1))
    (hobs : ∀ e ∈ hist, e.1.restFrame = false → Scales e.1 p waves (g e.1)) :
    (hist'.foldl (fun m e => m.addEffect e.1 e.2) m).evaluateSingle noKw times waves st r kw =
      (hist.foldl (fun m e => m.addEffect e.1 e.2) m).evaluateSingle noKw times waves st r kw := by
  rw [C125_spectrum m hm hist noKw kw times waves st r p zs F G g hF hG hle hne hp hz hrest hobs,
    C125_spectrum m hm hist' noKw kw times waves st r p zs F G g hF hG hle hne hp hz (fun e he => hrest e (hperm.mem_iff.1 he)) (fun e he => hobs e (hperm.mem_iff.1 he))]
  have hpr : ∀ f : Effect V R ℝ → Bool, product g ((hist'.map (·.1)).filter f) = product g ((hist.map (·.1)).filter f) := by
    intro f
    funext t w
    exact (((hperm.map _).filter f).map _).prod_eq
  rw [hpr, hpr]

/-! ### The effects of the library -/

/-- C125: a constant dimming scales the flux by the flux fraction. -/
theorem C125_dimming (s : V) (rest : Bool) {p : Params ℝ} {f : ℝ} (hf : p.get? "flux_fraction".toList = some (.num f)) (ws : List ℝ) :
    Scales (constantDimming s rest : Effect V R ℝ) p ws (fun _ _ => f) := by
  intro ts r H
  simp only [constantDimming, DimmingProps.fraction_num hf, List.map_map, Function.comp_def, Except.ok.injEq, Prod.mk.injEq, and_true]
  exact List.map_congr_left fun t _ => List.map_congr_left fun w _ => mul_comm _ _

/-- C125: dust scales the flux by the fraction of light it leaves, at wavelengths in the range of the law. -/
theorem C125_dust {load : Name → Dict Name V → Except Err Law} {law : Law} {ebvS : V} {rest : Bool} {kwargs : Dict Name V} {e : Effect V R ℝ}
    (he : extinction load (.object law) ebvS (some (ExtinctionProps.frameName rest)) kwargs = .ok e) {p : Params ℝ} {ebv : ℝ} (hp : p.get? "ebv".toList = some (.num ebv))
    {ws : List ℝ} (hw : ∀ w ∈ ws, law.lo ≤ w ∧ w ≤ law.hi) :
    e.restFrame = rest ∧ Scales e p ws (fun _ w => (10 : ℝ) ^ (-0.4 * law.axav w * (law.rv * ebv))) := by
  obtain ⟨e', h1, h2, -, -, h3⟩ := ExtinctionProps.extinction_object (R := R) load law ebvS rest kwargs
  rw [he] at h1
  cases h1
  refine ⟨h2, fun ts r H => ?_⟩
  rw [h3]
  unfold extinctionApply
  have : p.get? ebvKey = some (.num ebv) := hp
  rw [this]
  dsimp only
  unfold Law.extinguish
  rw [if_pos hw]
  dsimp only
  rw [if_pos (by simp)]
  simp only [List.map_map, Function.comp_def, Except.ok.injEq, Prod.mk.injEq, and_true]
  refine List.map_congr_left fun t _ => ?_
  rw [List.zipWith_map_left, List.zipWith_map_right, List.zipWith_self]
  exact List.map_congr_left fun w _ => mul_comm _ _

/-- C125: a lens scales the flux by the magnification at the time, or leaves it. -/
theorem C125_lens {binary : ℝ → V} {always t0S u0S tES : V} {q : ℝ} {kwargs : Dict Name V} {e : Effect V R ℝ}
    (he : microlensing binary always t0S u0S tES q kwargs = .ok e) {p : Params ℝ} (ws : List ℝ) :
    e.restFrame = false ∧ (SwitchedOff p → Scales e p ws fun _ _ => 1) ∧
    (SwitchedOn p → ∀ t0 u0 tE, Event p t0 u0 tE → Scales e p ws fun t _ => pspl (Real.log u0) (Real.log tE) t0 t) := by
  obtain ⟨h1, h2, -⟩ := lens_apply he
  refine ⟨h1, fun hoff ts r H => ?_, fun hon t0 u0 tE hev ts r H => ?_⟩
  · rw [h2]
    unfold microlensingApply
    rw [if_neg (off_not hoff)]
    simp
  · rw [h2]
    unfold microlensingApply
    rw [if_pos (on_truthy hon), mags hev]
    dsimp only
    rw [if_pos (by simp)]
    simp only [Except.ok.injEq, Prod.mk.injEq, and_true]
    rw [List.zipWith_map_left, List.zipWith_map_right, List.zipWith_self]
    simp only [List.map_map, Function.comp_def]
    exact List.map_congr_left fun t _ => List.map_congr_left fun w _ => mul_comm _ _

/-! ### A dust-reddened, lensed source in a survey -/

/-- The number a node's parameter has in a state. -/
noncomputable def readNum (st : SState ℝ) (node : Name) (key : String) : ℝ :=
  match (st.get? node).bind (·.get? key.toList) with
  | some (.num x) => x
  | _ => 0

/-- What reddening by `law` in the source's frame and a lens on the way make of the spectrum `S` of a source at redshift `z`. -/
noncomputable def lensedDust (law : Law) (z t0 ebv on lt0 u0 tE : ℝ) (S : ℝ → ℝ → ℝ) (t w : ℝ) : ℝ :=
  (if on = 0 then 1 else pspl (Real.log u0) (Real.log tE) lt0 t) *
    ((1 + z) * ((10 : ℝ) ^ (-0.4 * law.axav (w / (1 + z)) * (law.rv * ebv)) * S (t0 + (t - t0) / (1 + z)) (w / (1 + z))))

theorem addEffect_name (m : SEDModel V W R ℝ) (e : Effect V R ℝ) (skip : Bool) (s : Name) :
    { m.addEffect e skip with nodeString := s } = { m with nodeString := s }.addEffect e skip := by
  unfold SEDModel.addEffect
  cases skip <;> cases e.restFrame <;> rfl

theorem frame_of {p : Params ℝ} {z t0 : ℝ} (hz : p.get? redshiftKey = some (.num z)) (ht : p.get? t0Key = some (.num t0)) :
    ∃ zs, Frame true p zs ∧ frameFactor zs = 1 + z ∧ (∀ t, frameTime zs t = t0 + (t - t0) / (1 + z)) ∧ ∀ w, frameWave zs w = w / (1 + z) := by
  by_cases h : z = 0
  · subst h
    exact ⟨none, .zero hz, by simp [frameFactor], by simp [frameTime], by simp [frameWave]⟩
  · exact ⟨some (z, t0), .shifted rfl h hz ht, rfl, fun _ => rfl, fun _ => rfl⟩

/-- The observed spectrum of a source with dust and a lens. -/
theorem lensed_observed {m : SEDModel V W R ℝ} (hm : m.restEffects = [] ∧ m.obsEffects = []) (hflag : m.applyRedshift = true) (noKw : W)
    {load : Name → Dict Name V → Except Err Law} {law : Law} {ebvS : V} {kw1 : Dict Name V} {e1 : Effect V R ℝ}
    (he1 : extinction load (.object law) ebvS (some "rest".toList) kw1 = .ok e1)
    {binary : ℝ → V} {always t0S u0S tES : V} {q : ℝ} {kw2 : Dict Name V} {e2 : Effect V R ℝ} (he2 : microlensing binary always t0S u0S tES q kw2 = .ok e2)
    {st : SState ℝ} {p : Params ℝ} {F : ℝ → ℝ → ℝ} {G : ℝ → ℝ → ℝ → ℝ} (hF : Pointwise m st F)
    (hG : (m.extrap = none ∧ G = fun _ _ _ => 0) ∨ ∃ ex, m.extrap = some ex ∧ PointwiseExt ex G) (hle : ∀ l h, m.minwave st = some l → m.maxwave st = some h → l ≤ h)
    (hp : st.get? m.nodeString = some p) {z t0 ebv on lt0 u0 tE : ℝ} (hz : p.get? redshiftKey = some (.num z)) (ht : p.get? t0Key = some (.num t0))
    (hebv : p.get? "ebv".toList = some (.num ebv)) (hon : p.get? "apply_microlensing".toList = some (.num on)) (hev : Event p lt0 u0 tE)
    {g : PassbandGroup ℝ} (hrange : ∀ f pb, g.getItem f = .ok pb → ∀ w ∈ pb.waves, law.lo ≤ w / (1 + z) ∧ w / (1 + z) ≤ law.hi) :
    ObservesIn ((m.addEffect e1).addEffect e2) noKw st g (lensedDust law z t0 ebv on lt0 u0 tE fun t => stretch (m.minwave st) (m.maxwave st) (F t) G) := by
  intro f pb hpb hw times r
  obtain ⟨zs, hfr, f1, f2, f3⟩ := frame_of hz ht
  rw [← hflag] at hfr
  have he1' : extinction load (.object law) ebvS (some (ExtinctionProps.frameName true)) kw1 = .ok e1 := he1
  obtain ⟨r1, s1⟩ := C125_dust he1' hebv (ws := pb.waves.map (frameWave zs)) (by
    intro w hw
    obtain ⟨w', hw', rfl⟩ := List.mem_map.1 hw
    rw [f3]
    exact hrange f pb hpb w' hw')
  obtain ⟨r2, s2, s3⟩ := C125_lens he2 (p := p) pb.waves
  let gr : Effect V R ℝ → ℝ → ℝ → ℝ := fun e t w => if e.restFrame then (10 : ℝ) ^ (-0.4 * law.axav w * (law.rv * ebv)) else
    if on = 0 then 1 else pspl (Real.log u0) (Real.log tE) lt0 t
  have g1 : gr e1 = fun _ w => (10 : ℝ) ^ (-0.4 * law.axav w * (law.rv * ebv)) := by funext t w; simp [gr, r1]
  have g2 : gr e2 = fun t _ => if on = 0 then 1 else pspl (Real.log u0) (Real.log tE) lt0 t := by funext t w; simp [gr, r2]
  have := C125_spectrum m hm [(e1, false), (e2, false)] noKw noKw times pb.waves st r p zs F G gr hF hG hle hw hp hfr (by
      intro e he hre
      simp only [List.mem_cons, List.not_mem_nil, or_false] at he
      rcases he with rfl | rfl
      · rw [g1]; exact s1
      · rw [r2] at hre; cases hre) (by
      intro e he hre
      simp only [List.mem_cons, List.not_mem_nil, or_false] at he
      rcases he with rfl | rfl
      · rw [r1] at hre; cases hre
      · rw [g2]
        by_cases h0 : on = 0
        · have := s2 (Or.inl (by rw [hon, h0]))
          simpa [h0] using this
        · have := s3 (Or.inl ⟨on, h0, hon⟩) lt0 u0 tE hev
          simpa [h0] using this)
  simp only [List.foldl_cons, List.foldl_nil] at this
  rw [this]
  congr 2
  refine List.map_congr_left fun t _ => List.map_congr_left fun w _ => ?_
  unfold seen lensedDust
  rw [f1, f2, f3]
  simp only [product, List.map_cons, List.map_nil, r1, r2, List.filter_cons, Bool.not_true, Bool.not_false, if_true, List.filter_nil, List.prod_cons, List.prod_nil, mul_one, g1, g2,
    Bool.false_eq_true, if_false]

/-- C125, the whole run. A source model reddened by dust in its own frame and lensed on the way, simulated with any parameter graph in any surveys: row `k` of the result
records, for every matching observation, the band integral of the spectrum of the source in sample `k` at the source's time and wavelength, times the light its dust
leaves at the emitted wavelength, times 1+z, times the magnification at the observed time, with the noise of that observation. -/
theorem C125_survey {σ : Type} {m : SEDModel V W σ ℝ} (hm : m.restEffects = [] ∧ m.obsEffects = []) (hflag : m.applyRedshift = true) {noKw : W} {draw : σ → ℝ × σ}
    {load : Name → Dict Name V → Except Err Law} {law : Law} {ebvS : V} {kw1 : Dict Name V} {e1 : Effect V σ ℝ}
    (he1 : extinction load (.object law) ebvS (some "rest".toList) kw1 = .ok e1)
    {binary : ℝ → V} {always t0S u0S tES : V} {q : ℝ} {kw2 : Dict Name V} {e2 : Effect V σ ℝ} (he2 : microlensing binary always t0S u0S tES q kw2 = .ok e2)
    {H : Heap ℝ σ} (hG : NodeSpec.GraphOK H) {root : NodeId} (hph : Physical H root) {n : Int} {args : List SurveyArg} {saveCols paramCols : List Name}
    {offset : Option (List (Option ℝ))} {w : σ} {out : Outcome σ} (F : SState ℝ → ℝ → ℝ → ℝ) (G : ℝ → ℝ → ℝ → ℝ) (hF : ∀ st, Pointwise m st (F st))
    (hext : (m.extrap = none ∧ G = fun _ _ _ => 0) ∨ ∃ ex, m.extrap = some ex ∧ PointwiseExt ex G) (hle : ∀ st l h, m.minwave st = some l → m.maxwave st = some h → l ≤ h)
    (hstd : ∀ c ∈ paramCols, colName c ∉ standardCols) (hne : args ≠ [])
    (hgrid : ∀ a ∈ args, ∀ f pb, a.group.getItem f = .ok pb → ExactGrid pb) (hbuilt : ∀ a ∈ args, ObsSpec.Built a.table)
    (hrad : ∀ a ∈ args, ∃ rad, a.table.radius = some rad ∧ 0 ≤ rad ∧ rad ≤ 180) (hsave : saveCols.Nodup ∧ ∀ c ∈ saveCols, c ∉ baseCols)
    (h : simulateFull ((m.addEffect e1).addEffect e2) noKw draw H root n args saveCols paramCols offset w = .ok out)
    {nd : PNode ℝ σ} (hnd : out.graph[root]? = some nd) {z t0 ebv on lt0 u0 tE : Nat → ℝ}
    (hval : ∀ k : Nat, (k : Int) < n → ∀ key x, (key, x) ∈ [("redshift", z k), ("t0", t0 k), ("ebv", ebv k), ("apply_microlensing", on k), ("microlensing_t0", lt0 k),
      ("u_0", u0 k), ("t_E", tE k)] → sampleValue out.sampled nd.str key.toList k = some (.scalar x))
    (hrange : ∀ a ∈ args, ∀ f pb, a.group.getItem f = .ok pb → ∀ w ∈ pb.waves, ∀ k : Nat, (k : Int) < n → law.lo ≤ w / (1 + z k) ∧ w / (1 + z k) ≤ law.hi) :
    ∃ (N : Nat) (w0 : σ) (nobs : List Nat), n = (N : Int) ∧ nobs.length = N ∧ IsColumn out.table "nobs" N (fun k => nobs[k]?.map .int) ∧
      ∀ k, k < N → ∃ (st : SState ℝ) (ra dec : ℝ) (obs : List (Nat × Nat)), StateOf out.sampled k st ∧
        sampleValue out.sampled nd.str "ra".toList k = some (.scalar ra) ∧ sampleValue out.sampled nd.str "dec".toList k = some (.scalar dec) ∧
        nobs[k]? = some obs.length ∧ obs.Pairwise (fun x y => x.1 < y.1 ∨ x.1 = y.1 ∧ x.2 < y.2) ∧
        (∀ j q, (j, q) ∈ obs ↔ ∃ a rad, args[j]? = some a ∧ a.table.radius = some rad ∧
          ObsSpec.Match a.table (ra, dec) rad (SimSpec.winLo offset (some (t0 k))) (SimSpec.winHi offset (some (t0 k))) q) ∧
        ∀ (i j q : Nat), obs[i]? = some (j, q) → ∃ a, args[j]? = some a ∧
          Measured a j q (lensedDust law (z k) (t0 k) (ebv k) (on k) (lt0 k) (u0 k) (tE k) fun t => stretch (m.minwave st) (m.maxwave st) (F st t) G)
            (PhotSpec.drawAt draw w0 ((nobs.take k).sum + i)) (lightcurve out.nested k) i := by
  let Hs : SState ℝ → ℝ → ℝ → ℝ := fun st => lensedDust law (readNum st nd.str "redshift") (readNum st nd.str "t0") (readNum st nd.str "ebv")
    (readNum st nd.str "apply_microlensing") (readNum st nd.str "microlensing_t0") (readNum st nd.str "u_0") (readNum st nd.str "t_E")
    fun t => stretch (m.minwave st) (m.maxwave st) (F st t) G
  have hread : ∀ st (k : Nat), (k : Int) < n → StateOf out.sampled k st → (∃ p, st.get? nd.str = some p ∧ ∀ key x, (key, x) ∈ [("redshift", z k), ("t0", t0 k), ("ebv", ebv k),
      ("apply_microlensing", on k), ("microlensing_t0", lt0 k), ("u_0", u0 k), ("t_E", tE k)] → p.get? key.toList = some (.num x)) ∧
      Hs st = lensedDust law (z k) (t0 k) (ebv k) (on k) (lt0 k) (u0 k) (tE k) fun t => stretch (m.minwave st) (m.maxwave st) (F st t) G := by
    intro st k hk hst
    have hget : ∀ key x, (key, x) ∈ [("redshift", z k), ("t0", t0 k), ("ebv", ebv k), ("apply_microlensing", on k), ("microlensing_t0", lt0 k), ("u_0", u0 k), ("t_E", tE k)] →
        (st.get? nd.str).bind (·.get? key.toList) = some (.num x) := by
      intro key x hmem
      rw [hst nd.str key.toList, hval k hk key x hmem]
      rfl
    have hr : ∀ key x, (key, x) ∈ [("redshift", z k), ("t0", t0 k), ("ebv", ebv k), ("apply_microlensing", on k), ("microlensing_t0", lt0 k), ("u_0", u0 k), ("t_E", tE k)] →
        readNum st nd.str key = x := by
      intro key x hmem
      unfold readNum
      rw [hget key x hmem]
    constructor
    · cases hp : st.get? nd.str with
      | none =>
        have := hget "redshift" (z k) (by simp)
        rw [hp] at this; cases this
      | some p =>
        refine ⟨p, rfl, fun key x hmem => ?_⟩
        have := hget key x hmem
        rw [hp] at this
        exact this
    · show lensedDust _ _ _ _ _ _ _ _ _ = _
      rw [hr "redshift" (z k) (by simp), hr "t0" (t0 k) (by simp), hr "ebv" (ebv k) (by simp), hr "apply_microlensing" (on k) (by simp),
        hr "microlensing_t0" (lt0 k) (by simp), hr "u_0" (u0 k) (by simp), hr "t_E" (tE k) (by simp)]
  obtain ⟨nd', N, w0, nobs, g1, g2, -, g4, g5, -, g7⟩ := FullRunProps.C119_lightcurves hG hph Hs hstd hne hgrid hbuilt hrad hsave h (by
    intro nd' st k a hnd' hk hst ha
    rw [hnd] at hnd'
    cases hnd'
    obtain ⟨⟨p, hp, hpk⟩, hH⟩ := hread st k hk hst
    rw [hH, addEffect_name, addEffect_name]
    exact lensed_observed (m := { m with nodeString := nd.str }) hm hflag noKw he1 he2 (hF st) hext (hle st) hp (hpk "redshift" _ (by simp)) (hpk "t0" _ (by simp))
      (hpk "ebv" _ (by simp)) (hpk "apply_microlensing" _ (by simp))
      ⟨hpk "microlensing_t0" _ (by simp), hpk "u_0" _ (by simp), hpk "t_E" _ (by simp)⟩ (fun f pb hpb w hw => hrange a ha f pb hpb w hw k hk))
  rw [hnd] at g1
  cases g1
  refine ⟨N, w0, nobs, g2, g4, g5, fun k hk => ?_⟩
  have hkn : (k : Int) < n := by omega
  obtain ⟨st, ra, dec, t', obs, s1, s2, s3, s4, s5, s6, s7, -, s9⟩ := g7 k hk
  have ht : t' = some (t0 k) := by
    rw [hval k hkn "t0" (t0 k) (by simp)] at s4
    cases t' with
    | none => cases s4
    | some y => cases s4; rfl
  subst ht
  rw [(hread st k hkn s1).2] at s9
  exact ⟨st, ra, dec, obs, s1, s2, s3, s5, s6, s7, s9⟩

/-! ### A concrete run -/

noncomputable def exLaw : Law := ⟨0, 10, fun _ => 1, 3.1⟩

noncomputable def exConsts : List (Name × ℝ) :=
  [("ra".toList, 0), ("dec".toList, 0), ("redshift".toList, 1), ("t0".toList, 3), ("ebv".toList, 0.1), ("apply_microlensing".toList, 1), ("microlensing_t0".toList, 7),
   ("u_0".toList, 1), ("t_E".toList, 10)]

theorem exConsts_keys : (exConsts.map (·.1)).Nodup := by simp only [exConsts, List.map_cons, List.map_nil]; decide

theorem ex_sampled : ConstGraph.Sampled exConsts := ⟨_, rfl, rfl, rfl⟩

theorem ex_enough : ConstGraph.Enough exConsts := by
  intro p hp
  simp only [List.mem_cons, List.not_mem_nil, or_false] at hp
  rcases hp with rfl | rfl | rfl | rfl
  exacts [⟨0, by simp [exConsts]⟩, ⟨0, by simp [exConsts]⟩, ⟨3, by simp [exConsts]⟩, ⟨1, by simp [exConsts]⟩]

theorem ex_group {f : Name} {pb : Passband ℝ} (h : EndToEndProps.gGroup.getItem f = .ok pb) : ∀ w ∈ pb.waves, 0 ≤ w / (1 + 1) ∧ w / (1 + 1) ≤ 10 := by
  have : pb = EndToEndProps.gBand := by
    unfold PassbandGroup.getItem at h
    have key : ∀ k pb, EndToEndProps.gGroup.passbands.get? k = some pb → pb = EndToEndProps.gBand := by
      intro k pb h
      have := Dict.mem_of_get? h
      simp only [EndToEndProps.gGroup, List.mem_singleton] at this
      cases this; rfl
    split at h
    · cases h; exact key _ _ ‹_›
    · split at h
      · cases h
      · split at h
        · cases h
        · split at h
          · cases h; exact key _ _ ‹_›
          · cases h
  subst this
  intro w hw
  simp only [EndToEndProps.gBand, List.mem_cons, List.not_mem_nil, or_false] at hw
  rcases hw with rfl | rfl | rfl <;> norm_num

theorem lensed_nonneg (t w : ℝ) : 0 ≤ lensedDust exLaw 1 3 0.1 1 7 1 10 (fun _ _ => 5) t w := by
  unfold lensedDust
  rw [if_neg one_ne_zero, pspl_eq (by norm_num) (by norm_num)]
  have h1 := (pac_pos (sep2_pos (u0 := 1) (by norm_num) 10 7 t)).le
  positivity

/-- Two samples of a constant source at redshift 1, reddened by E(B-V) = 0.1 and lensed around day 7, in one LSST visit: the run succeeds, and the first sample's flux (if the
visit matches) measures the product. -/
example (draw : Nat → ℝ × Nat) : ∃ (e1 e2 : Effect Unit Nat ℝ) (out : Outcome Nat),
    extinction (fun _ _ => .error .keyError) (.object exLaw) () (some "rest".toList) [] = .ok e1 ∧ microlensing (fun _ => ()) () () () () 1 [] = .ok e2 ∧
    simulateFull ((EndToEndProps.constModel.addEffect e1).addEffect e2) () draw [ConstGraph.cNode exConsts none []] 0 2 [EndToEndProps.lsstArg] [] [] (some [some 1, none]) 4 = .ok out ∧
    ∃ (nobs : List Nat) (obs : List (Nat × Nat)), nobs[0]? = some obs.length ∧ ∀ (i j q : Nat), obs[i]? = some (j, q) → ∃ a w0,
      Measured a j q (lensedDust exLaw 1 3 0.1 1 7 1 10 fun _ _ => 5) (PhotSpec.drawAt draw w0 ((nobs.take 0).sum + i)) (lightcurve out.nested 0) i := by
  obtain ⟨e1, he1, -⟩ := ExtinctionProps.extinction_object (R := Nat) (fun _ _ => .error .keyError) exLaw () true []
  obtain ⟨e2, he2⟩ := (C90_constructor (R := Nat) (fun _ => ()) () () () () 1 []).2.2 (by simp [Dict.has, Dict.get?])
  have he1' : extinction (fun _ _ => .error .keyError) (.object exLaw) () (some "rest".toList) [] = .ok e1 := he1
  have hfun : ∀ st : SState ℝ, (fun (_ w : ℝ) => stretch (EndToEndProps.constModel.minwave st) (EndToEndProps.constModel.maxwave st) (fun (_ : ℝ) => (5 : ℝ)) (fun _ _ _ => 0) w) = fun _ _ => (5 : ℝ) := by
    intro st; funext t w
    simp only [stretch, EndToEndProps.constModel, Option.filter_none]
  have hobs : ∀ st : SState ℝ, (∀ q ∈ exConsts, (st.get? "source".toList).bind (·.get? q.1) = some (.num q.2)) →
      ObservesIn ({ (EndToEndProps.constModel.addEffect e1).addEffect e2 with nodeString := "source".toList }) () st EndToEndProps.gGroup
        (lensedDust exLaw 1 3 0.1 1 7 1 10 fun _ _ => 5) := by
    intro st hq
    have hz := hq ("redshift".toList, 1) (by simp [exConsts])
    cases hp : st.get? "source".toList with
    | none => rw [hp] at hz; cases hz
    | some p =>
      have hpk : ∀ q ∈ exConsts, p.get? q.1 = some (.num q.2) := by
        intro q hmem
        have := hq q hmem
        rw [hp] at this
        exact this
      rw [addEffect_name, addEffect_name]
      have := lensed_observed (m := { EndToEndProps.constModel with nodeString := "source".toList }) ⟨rfl, rfl⟩ rfl () he1' he2 (st := st) (p := p) (F := fun _ _ => 5)
        (G := fun _ _ _ => 0) (fun _ _ _ => rfl) (Or.inl ⟨rfl, rfl⟩) (by intro l h h1; cases h1) hp (hpk ("redshift".toList, 1) (by simp [exConsts]))
        (hpk ("t0".toList, 3) (by simp [exConsts])) (hpk ("ebv".toList, 0.1) (by simp [exConsts])) (hpk ("apply_microlensing".toList, 1) (by simp [exConsts]))
        ⟨hpk ("microlensing_t0".toList, 7) (by simp [exConsts]), hpk ("u_0".toList, 1) (by simp [exConsts]), hpk ("t_E".toList, 10) (by simp [exConsts])⟩
        (g := EndToEndProps.gGroup) (fun f pb hpb => ex_group hpb)
      rwa [hfun] at this
  obtain ⟨out, ho, hgr, hval⟩ := ConstGraph.c_run exConsts_keys ex_sampled ex_enough draw (isBand := false)
    (ev := fun _ nd a => evalModel { (EndToEndProps.constModel.addEffect e1).addEffect e2 with nodeString := nd.str } () a.group)
    (fun st hst => EndToEndProps.answers_of EndToEndProps.lsst_sound (hobs st hst) lensed_nonneg EndToEndProps.gGroup_grid _ rfl)
  refine ⟨e1, e2, out, he1', he2, ho, ?_⟩
  obtain ⟨N, w0, nobs, hN, -, -, hk⟩ := C125_survey (m := EndToEndProps.constModel) ⟨rfl, rfl⟩ rfl he1' he2 (ConstGraph.c_graph exConsts_keys) (ConstGraph.c_physical ex_enough)
    (fun _ _ _ => 5) (fun _ _ _ => 0) (fun _ _ _ _ => rfl) (Or.inl ⟨rfl, rfl⟩) (by intro st l h h1; cases h1) (by intro c hc; cases hc) (by simp)
    (by intro a ha; rw [List.mem_singleton] at ha; subst ha; exact EndToEndProps.gGroup_grid) (by intro a ha; rw [List.mem_singleton] at ha; subst ha; exact EndToEndProps.lsst_built)
    (by intro a ha; rw [List.mem_singleton] at ha; subst ha; exact ⟨1, rfl, by norm_num, by norm_num⟩) (by simp) ho (nd := ConstGraph.cNode exConsts (some 0) "source".toList)
    (by rw [hgr]; rfl) (z := fun _ => 1) (t0 := fun _ => 3) (ebv := fun _ => 0.1) (on := fun _ => 1) (lt0 := fun _ => 7) (u0 := fun _ => 1) (tE := fun _ => 10)
    (by
      intro k hk key x hmem
      simp only [List.mem_cons, List.not_mem_nil, or_false, Prod.mk.injEq] at hmem
      refine hval (key.toList, x) ?_ k hk
      rcases hmem with ⟨rfl, rfl⟩ | ⟨rfl, rfl⟩ | ⟨rfl, rfl⟩ | ⟨rfl, rfl⟩ | ⟨rfl, rfl⟩ | ⟨rfl, rfl⟩ | ⟨rfl, rfl⟩ <;> simp [exConsts])
    (by intro a ha f pb hpb w hw k _; rw [List.mem_singleton] at ha; subst ha; exact ex_group hpb w hw)
  obtain ⟨st, ra, dec, obs, -, -, -, h1, -, -, h2⟩ := hk 0 (by omega)
  refine ⟨nobs, obs, h1, fun i j q hq => ?_⟩
  obtain ⟨a, -, h3⟩ := h2 i j q hq
  rw [hfun] at h3
  exact ⟨a, w0, h3⟩

end LCL.ScaledProps
