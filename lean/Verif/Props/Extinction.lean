import Verif.Model.EffectLib
import Verif.Lemmas.EffectAdd
import Verif.Props.Effects

/-!
# Property C89: dust extinction
-/

namespace LCL.ExtinctionProps
open LCL LCL.PhysSpec LCL.PhysicalProps LCL.EffectLib LCL.EffectAdd
variable {V W R : Type}

/-- The name of a frame. -/
def frameName (rest : Bool) : Name := if rest then "rest".toList else "observer".toList

/-- The wavelength at which the dust acts: the emitted one for dust in the host (rest frame), the observed one for
foreground dust. -/
noncomputable def dustWave (rest : Bool) (zs : Option (ℝ × ℝ)) (w : ℝ) : ℝ := if rest then frameWave zs w else w

theorem frameArg_name (rest : Bool) : frameArg (some (frameName rest)) = .ok rest := by
  have h : ("rest".toList : Name) ≠ "observer".toList := by decide
  unfold frameArg frameName
  cases rest
  · rw [if_neg (by simp)]; exact if_pos rfl
  · rw [if_pos rfl]
    dsimp only
    rw [if_neg h, if_pos rfl]

/-- C89: the constructor succeeds exactly for frame 'observer' or 'rest' (and, with a name, for a law that can be built);
the effect then acts in that frame, whatever the keyword arguments say, and has the E(B-V) given. -/
theorem C89_constructor (load : Name → Dict Name V → Except Err Law) (arg : ModelArg) (ebv : V) (frame : Option Name)
    (kwargs : Dict Name V) :
    ((∃ e : Effect V R ℝ, extinction load arg ebv frame kwargs = .ok e) ↔
      (frame = some "observer".toList ∨ frame = some "rest".toList) ∧
        ∀ n, arg = .name n → ∃ law, load n kwargs = .ok law) ∧
    (∀ e : Effect V R ℝ, extinction load arg ebv frame kwargs = .ok e →
      (e.restFrame = true ↔ frame = some "rest".toList) ∧ e.parameters.get? "ebv".toList = some ebv) ∧
    (frame ≠ some "observer".toList → frame ≠ some "rest".toList →
      extinction (R := R) load arg ebv frame kwargs = .error .valueError) := by
  have hne : ("rest".toList : Name) ≠ "observer".toList := by decide
  have hl : (∃ l, loadLaw load kwargs arg = .ok l) ↔ ∀ n, arg = .name n → ∃ law, load n kwargs = .ok law := by
    cases arg with
    | none => simp [loadLaw]
    | object law => simp [loadLaw]
    | name n =>
      simp only [loadLaw, ModelArg.name.injEq, forall_eq']
      cases h : load n kwargs <;> simp
  have hf : ∀ b, frameArg frame = .ok b ↔ frame = some (frameName b) := by
    intro b
    constructor
    · intro h
      cases frame with
      | none => cases h
      | some f =>
        unfold frameArg at h
        dsimp only at h
        split at h
        · cases h; subst_vars; rfl
        · split at h
          · cases h; subst_vars; rfl
          · cases h
    · rintro rfl; exact frameArg_name b
  refine ⟨?_, ?_, ?_⟩
  · rw [← hl]
    constructor
    · rintro ⟨e, h⟩
      unfold extinction at h
      cases hfr : frameArg frame with
      | error err => rw [hfr] at h; cases h
      | ok b =>
        rw [hfr] at h
        dsimp only at h
        refine ⟨?_, ?_⟩
        · cases b
          · exact Or.inl ((hf false).1 hfr)
          · exact Or.inr ((hf true).1 hfr)
        · cases hll : loadLaw load kwargs arg with
          | error err => rw [hll] at h; cases h
          | ok l => exact ⟨l, rfl⟩
    · rintro ⟨h, l, hll⟩
      unfold extinction
      rcases h with h | h
      · rw [(hf false).2 h, hll]; exact ⟨_, rfl⟩
      · rw [(hf true).2 h, hll]; exact ⟨_, rfl⟩
  · intro e h
    unfold extinction at h
    cases hfr : frameArg frame with
    | error err => rw [hfr] at h; cases h
    | ok b =>
      rw [hfr] at h
      dsimp only at h
      cases hll : loadLaw load kwargs arg with
      | error err => rw [hll] at h; cases h
      | ok l =>
        rw [hll] at h
        cases h
        refine ⟨?_, Dict.get?_set_self _ _ _⟩
        have hb := (hf b).1 hfr
        cases b
        · simp only [Bool.false_eq_true, false_iff]
          rw [hb]
          intro h
          exact hne (Option.some.inj h).symm
        · simp only [true_iff]; exact hb
  · intro h1 h2
    unfold extinction
    cases hfr : frameArg frame with
    | error err =>
      cases frame with
      | none => cases hfr; rfl
      | some f =>
        unfold frameArg at hfr
        dsimp only at hfr
        split at hfr
        · cases hfr
        · split at hfr
          · cases hfr
          · cases hfr; rfl
    | ok b =>
      have := (hf b).1 hfr
      cases b
      · exact absurd this h1
      · exact absurd this h2

theorem zip_scale (c : ℝ) : ∀ (row f : List ℝ),
    (List.zipWith (· * ·) row f).map (fun x => x * c) = List.zipWith (· * ·) (row.map fun x => x * c) f
  | [], _ => by simp
  | _ :: _, [] => by simp
  | x :: row, y :: f => by
    simp only [List.zipWith_cons_cons, List.map_cons, List.cons.injEq]
    exact ⟨by ring, zip_scale c row f⟩

theorem extinction_object (load : Name → Dict Name V → Except Err Law) (law : Law) (ebvS : V) (rest : Bool) (kwargs : Dict Name V) :
    ∃ e : Effect V R ℝ, extinction load (.object law) ebvS (some (frameName rest)) kwargs = .ok e ∧ e.restFrame = rest ∧
      e.applyBand = (fun _ _ _ _ _ => .error .notImplemented) ∧
      (e.parameters = (effectKwargs kwargs).set ebvKey ebvS) ∧
      ∀ p ts waves r a, e.apply p ts waves r a = match extinctionApply (some law) p waves a with
        | .error err => .error err
        | .ok b => .ok (b, r) := by
  unfold extinction
  rw [frameArg_name]
  exact ⟨_, rfl, rfl, rfl, rfl, fun _ _ _ _ _ => rfl⟩

/-- C89: adding an extinction effect to a model without effects multiplies the flux at every time and wavelength by
10^(-0.4 A(w)/A(V) R(V) E(B-V)), with the law taken at the emitted wavelength for frame 'rest' and at the observed one for
frame 'observer'; if one of these wavelengths is outside the range of the law the evaluation raises ValueError. -/
theorem C89_evaluate (load : Name → Dict Name V → Except Err Law) (law : Law) (ebvS : V) (rest : Bool) (kwargs : Dict Name V)
    (m : SEDModel V W R ℝ) (hm : m.restEffects = [] ∧ m.obsEffects = []) (skip : Bool) (noKw kw : W) (times waves : List ℝ)
    (st : SState ℝ) (r r' : R) (p : Params ℝ) (zs : Option (ℝ × ℝ)) (ebv : ℝ) (a : Mat ℝ)
    (hp : st.get? m.nodeString = some p) (hz : Frame m.applyRedshift p zs) (he : p.get? "ebv".toList = some (.num ebv))
    (ha : m.evaluateSingle noKw times waves st r kw = .ok (a, r')) (hrows : ∀ row ∈ a, row.length = waves.length) :
    ∃ e : Effect V R ℝ, extinction load (.object law) ebvS (some (frameName rest)) kwargs = .ok e ∧
      ((∀ w ∈ waves, law.lo ≤ dustWave rest zs w ∧ dustWave rest zs w ≤ law.hi) →
        (m.addEffect e skip).evaluateSingle noKw times waves st r kw =
          .ok (a.map fun row => List.zipWith (fun x w => x * (10 : ℝ) ^ (-0.4 * law.axav (dustWave rest zs w) * (law.rv * ebv))) row waves, r')) ∧
      ((∃ w ∈ waves, dustWave rest zs w < law.lo ∨ law.hi < dustWave rest zs w) →
        (m.addEffect e skip).evaluateSingle noKw times waves st r kw = .error .valueError) := by
  obtain ⟨e, he1, he2, -, -, he3⟩ := extinction_object (R := R) load law ebvS rest kwargs
  refine ⟨e, he1, ?_⟩
  have hpe : p.get? ebvKey = some (.num ebv) := he
  have hcongr : ∀ (row : List ℝ), List.zipWith (fun x w => x * (10 : ℝ) ^ (-0.4 * law.axav (dustWave rest zs w) * (law.rv * ebv))) row waves =
      List.zipWith (· * ·) row (waves.map fun w => law.left ebv (dustWave rest zs w)) := by
    intro row
    rw [List.zipWith_map_right]
    rfl
  cases rest with
  | false =>
    have hd : ∀ w, dustWave false zs w = w := fun _ => rfl
    have key := evaluate_observer m e he2 skip noKw kw times waves st r p hp
    rw [ha] at key
    dsimp only at key
    rw [he3] at key
    unfold extinctionApply at key
    rw [hpe] at key
    dsimp only at key
    constructor
    · intro hr
      have h2 : law.extinguish waves ebv = .ok (waves.map (law.left ebv)) := if_pos hr
      rw [h2] at key
      dsimp only at key
      rw [if_pos hrows] at key
      rw [key]
      simp only [hcongr]
      rfl
    · rintro ⟨w, hw, hout⟩
      have h2 : law.extinguish waves ebv = .error .valueError := by
        refine if_neg fun h => ?_
        rcases hout with h' | h'
        · exact absurd (h w hw).1 (not_le.2 h')
        · exact absurd (h w hw).2 (not_le.2 h')
      rw [h2] at key
      exact key
  | true =>
    have hd : ∀ w, dustWave true zs w = frameWave zs w := fun _ => rfl
    have key := evaluate_rest m e he2 hm.2 skip noKw kw times waves st r p hp zs hz
    have base := evaluate_plain m hm.2 noKw kw times waves st r p hp zs hz
    rw [ha] at base
    cases hs : m.sedExtrapolated noKw (times.map (frameTime zs)) (waves.map (frameWave zs)) st kw with
    | error err => rw [hs] at base; cases base
    | ok sed =>
      rw [hs] at base key
      dsimp only at base key
      rw [hm.1] at base key
      simp only [applyEffects] at base key
      injection base with base
      injection base with b1 b2
      subst b2
      have hlen : ∀ row ∈ sed, row.length = waves.length := by
        intro row hrow
        have := hrows (row.map fun x => x * frameFactor zs) (by rw [b1]; exact List.mem_map_of_mem hrow)
        simpa using this
      rw [he3] at key
      unfold extinctionApply at key
      rw [hpe] at key
      dsimp only at key
      constructor
      · intro hr
        have h2 : law.extinguish (waves.map (frameWave zs)) ebv = .ok ((waves.map (frameWave zs)).map (law.left ebv)) := by
          refine if_pos fun w hw => ?_
          obtain ⟨w', hw', rfl⟩ := List.mem_map.1 hw
          exact hr w' hw'
        rw [h2] at key
        dsimp only at key
        rw [if_pos (by simpa using hlen)] at key
        rw [key, b1]
        simp only [hcongr, List.map_map]
        congr 2
        apply List.map_congr_left
        intro row _
        simp only [Function.comp_apply]
        rw [zip_scale]
        rfl
      · rintro ⟨w, hw, hout⟩
        have h2 : law.extinguish (waves.map (frameWave zs)) ebv = .error .valueError := by
          refine if_neg fun h => ?_
          have := h _ (List.mem_map_of_mem hw)
          rcases hout with h' | h'
          · exact absurd this.1 (not_le.2 h')
          · exact absurd this.2 (not_le.2 h')
        rw [h2] at key
        exact key

/-- C89, the factor: no dust changes nothing; for a law with non-negative extinction the factor lies in (0, 1], more dust
never brightens, and two columns of dust act like their sum. -/
theorem C89_factor (law : Law) (w e1 e2 : ℝ) :
    law.left 0 w = 1 ∧ 0 < law.left e1 w ∧ law.left (e1 + e2) w = law.left e1 w * law.left e2 w ∧
    (0 ≤ law.axav w → 0 ≤ law.rv → (e1 ≤ e2 → law.left e2 w ≤ law.left e1 w) ∧ (0 ≤ e1 → law.left e1 w ≤ 1)) := by
  have h10 : (0 : ℝ) < 10 := by norm_num
  have hmono : 0 ≤ law.axav w → 0 ≤ law.rv → ∀ x y, x ≤ y → law.left y w ≤ law.left x w := by
    intro ha hr x y hxy
    apply Real.rpow_le_rpow_of_exponent_le (by norm_num)
    have := mul_nonneg ha (mul_nonneg hr (sub_nonneg.2 hxy))
    nlinarith
  have h0 : law.left 0 w = 1 := by simp [Law.left]
  refine ⟨h0, Real.rpow_pos_of_pos h10 _, ?_, ?_⟩
  · unfold Law.left
    rw [← Real.rpow_add h10]
    congr 1
    ring
  · intro ha hr
    refine ⟨hmono ha hr e1 e2, fun h => ?_⟩
    rw [← h0]
    exact hmono ha hr 0 e1 h

/-- C89: without an E(B-V) the evaluation raises ValueError. -/
theorem C89_missing (load : Name → Dict Name V → Except Err Law) (law : Law) (ebvS : V) (rest : Bool) (kwargs : Dict Name V)
    (p : Params ℝ) (h : p.get? "ebv".toList = none ∨ p.get? "ebv".toList = some .none) (times waves : List ℝ) (r : R) (a : Mat ℝ) :
    ∃ e : Effect V R ℝ, extinction load (.object law) ebvS (some (frameName rest)) kwargs = .ok e ∧
      e.apply p times waves r a = .error .valueError := by
  obtain ⟨e, he1, -, -, -, he3⟩ := extinction_object (R := R) load law ebvS rest kwargs
  refine ⟨e, he1, ?_⟩
  rw [he3]
  unfold extinctionApply
  have : p.get? ebvKey = p.get? "ebv".toList := rfl
  rw [this]
  rcases h with h | h <;> rw [h]

/-- C89 fails for bandflux models: an extinction effect can be added to one, but every evaluation whose bandfluxes can be
computed then raises NotImplementedError. -/
theorem C89_bandflux_counterexample (load : Name → Dict Name V → Except Err Law) (law : Law) (ebvS : V) (rest : Bool)
    (kwargs : Dict Name V) (m : BandModel V R ℝ) (hm : m.effects = []) (skip : Bool) (times : List ℝ) (filters : List Name)
    (st : SState ℝ) (r r' : R) (p : Params ℝ) (b : List ℝ) (hp : st.get? m.nodeString = some p)
    (hb : m.computeBandflux times filters st r = .ok (b, r')) :
    ∃ e : Effect V R ℝ, extinction load (.object law) ebvS (some (frameName rest)) kwargs = .ok e ∧
      m.evaluateBandfluxesSingle times filters st r = .ok (b, r') ∧
      (m.addEffect e skip).evaluateBandfluxesSingle times filters st r = .error .notImplemented := by
  obtain ⟨e, he1, -, he2, -, -⟩ := extinction_object (R := R) load law ebvS rest kwargs
  refine ⟨e, he1, ?_, ?_⟩
  · unfold BandModel.evaluateBandfluxesSingle localParams
    rw [hp]
    dsimp only
    rw [hb, hm]
    rfl
  · have h1 : (m.addEffect e skip).nodeString = m.nodeString := by unfold BandModel.addEffect; cases skip <;> rfl
    have h2 : (m.addEffect e skip).computeBandflux = m.computeBandflux := by unfold BandModel.addEffect; cases skip <;> rfl
    have h3 : (m.addEffect e skip).effects = [e] := by unfold BandModel.addEffect; cases skip <;> simp [hm]
    unfold BandModel.evaluateBandfluxesSingle localParams
    rw [h1, h2, h3, hp]
    dsimp only
    rw [hb]
    dsimp only
    unfold applyBandEffects
    rw [he2]

/-- C89 fails for a source with dust both in its host and in the foreground: both effects read the parameter "ebv" of the
model, and the second one's value is not stored, so the foreground acts with the E(B-V) of the host. -/
theorem C89_host_and_foreground_counterexample (load : Name → Dict Name ℝ → Except Err Law) (law1 law2 : Law) (host foreground : ℝ)
    (m : SEDModel ℝ W R ℝ) (hm : m.restEffects = [] ∧ m.obsEffects = []) (hset : "ebv".toList ∉ m.setters.keys)
    (hr : m.applyRedshift = false) (noKw kw : W) (times waves : List ℝ) (r : R) (a : Mat ℝ) :
    ∃ e1 e2 : Effect ℝ R ℝ, extinction load (.object law1) host (some "rest".toList) [] = .ok e1 ∧
      extinction load (.object law2) foreground (some "observer".toList) [] = .ok e2 ∧
      let m2 := (m.addEffect e1).addEffect e2
      m2.setters.get? "ebv".toList = some host ∧
      (m.evaluateSingle noKw times waves (EffectProps.constState m2) r kw = .ok (a, r) →
        (∀ row ∈ a, row.length = waves.length) →
        (∀ w ∈ waves, law1.lo ≤ w ∧ w ≤ law1.hi ∧ law2.lo ≤ w ∧ w ≤ law2.hi) →
        m2.evaluateSingle noKw times waves (EffectProps.constState m2) r kw =
          .ok (a.map fun row => List.zipWith (· * ·) row (waves.map fun w => law1.left host w * law2.left host w), r)) := by
  obtain ⟨e1, h1a, h1b, -, h1c, h1d⟩ := extinction_object (R := R) load law1 host true []
  obtain ⟨e2, h2a, h2b, -, h2c, h2d⟩ := extinction_object (R := R) load law2 foreground false []
  refine ⟨e1, e2, h1a, h2a, ?_⟩
  intro m2
  have hs1 : (m.addEffect e1).setters = addMissing m.setters e1.parameters := by
    unfold SEDModel.addEffect; dsimp only; split <;> rfl
  have hs2 : m2.setters = addMissing (m.addEffect e1).setters e2.parameters := by
    show ((m.addEffect e1).addEffect e2).setters = _
    unfold SEDModel.addEffect; dsimp only; split <;> rfl
  have hp1 : e1.parameters = [(ebvKey, host)] := h1c
  have hp2 : e2.parameters = [(ebvKey, foreground)] := h2c
  have hget : m2.setters.get? ebvKey = some host := by
    rw [hs2, EffectProps.addMissing_get _ _ (by rw [hp2]; simp), hs1, EffectProps.addMissing_get _ _ (by rw [hp1]; simp),
      show Dict.get? m.setters ebvKey = none from (Dict.get?_eq_none_iff _ _).2 hset]
    simp only
    rw [hp1]
    simp [Dict.get?_cons]
  refine ⟨hget, ?_⟩
  intro ha hrows hin
  have hn1 : (m.addEffect e1).nodeString = m.nodeString := by unfold SEDModel.addEffect; simp [h1b]
  have hn2 : m2.nodeString = m.nodeString := by
    show ((m.addEffect e1).addEffect e2).nodeString = _
    rw [← hn1]; unfold SEDModel.addEffect; dsimp only; split <;> rfl
  have hp : (EffectProps.constState m2).get? m.nodeString = some (m2.setters.map fun q => (q.1, PVal.num q.2)) := by
    rw [← hn2]; simp [EffectProps.constState, Dict.get?_cons]
  have hpe : Dict.get? (m2.setters.map fun q => (q.1, PVal.num q.2)) ebvKey = some (.num host) := by
    rw [EffectProps.get?_num, hget]; rfl
  have hz : Frame m.applyRedshift (m2.setters.map fun q => (q.1, PVal.num q.2)) none := .off hr
  obtain ⟨e, ha1, hok, -⟩ := C89_evaluate (R := R) load law1 host true [] m hm false noKw kw times waves
    (EffectProps.constState m2) r r _ none host a hp hz hpe ha hrows
  have hee : e = e1 := by
    have := ha1.symm.trans h1a
    injection this
  subst hee
  have hfirst := hok (fun w hw => ⟨(hin w hw).1, (hin w hw).2.1⟩)
  have key := evaluate_observer (m.addEffect e) e2 h2b false noKw kw times waves (EffectProps.constState m2) r _ (by rw [hn1]; exact hp)
  rw [hfirst] at key
  dsimp only at key
  rw [h2d] at key
  unfold extinctionApply at key
  rw [hpe] at key
  dsimp only at key
  have h2 : law2.extinguish waves host = .ok (waves.map (law2.left host)) := if_pos fun w hw => (hin w hw).2.2
  rw [h2] at key
  dsimp only at key
  rw [if_pos (by
    intro row hrow
    obtain ⟨row', hrow', rfl⟩ := List.mem_map.1 hrow
    rw [List.length_zipWith, hrows _ hrow', min_self])] at key
  show ((m.addEffect e).addEffect e2).evaluateSingle noKw times waves (EffectProps.constState m2) r kw = _
  rw [key, List.map_map]
  dsimp only
  congr 2
  apply List.map_congr_left
  intro row _
  simp only [Function.comp_apply]
  rw [List.zipWith_map_right, List.zipWith_map_right]
  clear * -
  induction row generalizing waves with
  | nil => simp
  | cons x row ih =>
    cases waves with
    | nil => simp
    | cons w waves =>
      simp only [List.zipWith_cons_cons, List.cons.injEq]
      exact ⟨by simp only [Law.left, dustWave, frameWave]; norm_num; ring, ih waves⟩

/-! ### The hypotheses are met -/

/-- A law with A(w)/A(V) = 1 between 1000 and 30000 angstrom and R(V) = 2.5. -/
noncomputable def greyLaw : Law := ⟨1000, 30000, fun _ => 1, 2.5⟩

/-- A flat source, redshifted or not, with E(B-V) = 1. -/
noncomputable def flatSource (z : Bool) : SEDModel Unit Unit Unit ℝ :=
  ⟨"s".toList, [], fun _ _ ts ws => .ok (ts.map fun _ => ws.map fun _ => 50), fun _ => none, fun _ => none, none, z, [], []⟩

noncomputable def dustState : SState ℝ := [("s".toList, [("redshift".toList, .num 1), ("t0".toList, .num 0), ("ebv".toList, .num 1)])]

theorem flat_value : (flatSource true).evaluateSingle () [3, 4] [2000, 40000] dustState () () = .ok ([[100, 100], [100, 100]], ()) := by
  rw [evaluate_plain (flatSource true) rfl () () _ _ _ () _ rfl (some (1, 0)) (.shifted rfl (by norm_num) rfl rfl)]
  simp only [SEDModel.sedExtrapolated, flatSource, List.map_cons, List.map_nil, npMin, npMax, frameFactor, applyEffects]
  rw [if_pos (by simp)]
  simp
  norm_num

/-- Host dust: 2000 and 40000 angstrom are emitted as 1000 and 20000, inside the law, and one magnitude is lost per unit of
E(B-V): a tenth of the flux is left. -/
example : ∃ e : Effect Unit Unit ℝ, extinction (fun _ _ => .error .keyError) (.object greyLaw) () (some "rest".toList) [] = .ok e ∧
    ((flatSource true).addEffect e).evaluateSingle () [3, 4] [2000, 40000] dustState () () = .ok ([[10, 10], [10, 10]], ()) := by
  obtain ⟨e, h1, h2, -⟩ := C89_evaluate (V := Unit) (R := Unit) (fun _ _ => .error .keyError) greyLaw () true []
    (flatSource true) ⟨rfl, rfl⟩ false () () [3, 4] [2000, 40000] dustState () () _ (some (1, 0)) 1 _ rfl
    (.shifted rfl (by norm_num) rfl rfl) rfl flat_value (by simp)
  refine ⟨e, h1, ?_⟩
  rw [h2]
  · have h : (10 : ℝ) ^ (-0.4 * greyLaw.axav 0 * (greyLaw.rv * 1)) = 1 / 10 := by
      have : (-0.4 * greyLaw.axav 0 * (greyLaw.rv * 1) : ℝ) = -1 := by unfold greyLaw; norm_num
      rw [this, Real.rpow_neg_one]; norm_num
    have h' : ∀ w, (10 : ℝ) ^ (-0.4 * greyLaw.axav w * (greyLaw.rv * 1)) = 1 / 10 := fun w => h
    simp only [h']
    norm_num
  · intro w hw
    simp only [List.mem_cons, List.not_mem_nil, or_false] at hw
    rcases hw with rfl | rfl <;> simp [dustWave, frameWave, greyLaw] <;> norm_num

/-- Foreground dust: 40000 angstrom is outside the law. -/
example : ∃ e : Effect Unit Unit ℝ, extinction (fun _ _ => .error .keyError) (.object greyLaw) () (some "observer".toList) [] = .ok e ∧
    ((flatSource true).addEffect e).evaluateSingle () [3, 4] [2000, 40000] dustState () () = .error .valueError := by
  obtain ⟨e, h1, -, h2⟩ := C89_evaluate (V := Unit) (R := Unit) (fun _ _ => .error .keyError) greyLaw () false []
    (flatSource true) ⟨rfl, rfl⟩ false () () [3, 4] [2000, 40000] dustState () () _ (some (1, 0)) 1 _ rfl
    (.shifted rfl (by norm_num) rfl rfl) rfl flat_value (by simp)
  exact ⟨e, h1, h2 ⟨40000, by simp, Or.inr (by simp [dustWave, greyLaw]; norm_num)⟩⟩

/-- More dust in front of the same source: strictly less light. -/
example : greyLaw.left 2 5000 ≤ greyLaw.left 1 5000 :=
  ((C89_factor greyLaw 5000 1 2).2.2.2 (by simp [greyLaw]) (by norm_num [greyLaw])).1 (by norm_num)

/-- C89. The parameters of the effect are E(B-V) and the keyword arguments, except the two names the base class takes for itself; a keyword `ebv` gives way to the argument. -/
theorem C89_parameters (load : Name → Dict Name V → Except Err Law) (law : Law) (ebvS : V) (rest : Bool) (kwargs : Dict Name V) :
    ∃ e : Effect V R ℝ, extinction load (.object law) ebvS (some (frameName rest)) kwargs = .ok e ∧
      e.parameters.get? "ebv".toList = some ebvS ∧ e.parameters.get? "rest_frame".toList = none ∧ e.parameters.get? "effect_name".toList = none ∧
      ∀ k, k ≠ "ebv".toList → k ≠ "rest_frame".toList → k ≠ "effect_name".toList → e.parameters.get? k = kwargs.get? k := by
  obtain ⟨e, h1, _, _, h4, _⟩ := extinction_object (R := R) load law ebvS rest kwargs
  refine ⟨e, h1, ?_⟩
  have keep : ∀ (d : Dict Name V) (k : Name), k ≠ "rest_frame".toList → k ≠ "effect_name".toList → (effectKwargs d).get? k = d.get? k := by
    intro d
    induction d with
    | nil => intros; rfl
    | cons q d ih =>
      intro k h1 h2
      unfold effectKwargs at ih ⊢
      by_cases hq : q.1 = k
      · rw [List.filter_cons_of_pos (by rw [hq]; simp only [h1, h2, ne_eq, not_false_eq_true, decide_true, Bool.and_self])]
        obtain ⟨a, b⟩ := q
        rw [Dict.get?_cons, Dict.get?_cons, if_pos hq, if_pos hq]
      · obtain ⟨a, b⟩ := q
        rw [Dict.get?_cons, if_neg hq]
        by_cases hf : (decide (a ≠ "rest_frame".toList) && decide (a ≠ "effect_name".toList)) = true
        · rw [List.filter_cons, if_pos hf, Dict.get?_cons, if_neg hq, ih k h1 h2]
        · rw [List.filter_cons, if_neg hf, ih k h1 h2]
  have drop : ∀ k : Name, (k = "rest_frame".toList ∨ k = "effect_name".toList) → (effectKwargs kwargs).get? k = none := by
    intro k hk
    rw [Dict.get?_eq_none_iff]
    intro hm
    obtain ⟨q, hq, rfl⟩ := List.mem_map.1 hm
    have := (List.mem_filter.1 hq).2
    rw [Bool.and_eq_true, decide_eq_true_eq, decide_eq_true_eq] at this
    rcases hk with hk | hk
    · exact this.1 hk
    · exact this.2 hk
  rw [h4]
  refine ⟨Dict.get?_set_self _ _ _, ?_, ?_, ?_⟩
  · rw [Dict.get?_set_ne _ _ (by decide)]; exact drop _ (Or.inl rfl)
  · rw [Dict.get?_set_ne _ _ (by decide)]; exact drop _ (Or.inr rfl)
  · intro k h1 h2 h3
    rw [show ebvKey = "ebv".toList from rfl, Dict.get?_set_ne _ _ (fun h => h1 h.symm)]
    exact keep kwargs k h2 h3

end LCL.ExtinctionProps
