import Verif.Lemmas.EffectAdd
import Verif.Props.Effects

/-!
# Property C93: constant dimming
-/

namespace LCL.DimmingProps
open LCL LCL.PhysSpec LCL.PhysicalProps LCL.EffectAdd
variable {K : Type} [Field K] [LinearOrder K] {V W R : Type}

theorem fraction_num {p : Params K} {f : K} (h : p.get? "flux_fraction".toList = some (.num f)) : fluxFraction p = .ok f := by
  unfold fluxFraction; rw [h]

/-- C93: a constant dimming added, in either frame, to a model without effects multiplies the flux at every time and wavelength by
the flux fraction and draws no random numbers; added to a model with effects in the observer frame it multiplies that model's flux. -/
theorem C93_evaluate (s : V) (rest : Bool) (m : SEDModel V W R K) (hm : rest = true → m.obsEffects = []) (skip : Bool) (noKw kw : W)
    (times waves : List K) (st : SState K) (r r' : R) (p : Params K) (zs : Option (K × K)) (f : K) (a : Mat K)
    (hp : st.get? m.nodeString = some p) (hz : Frame m.applyRedshift p zs) (hf : p.get? "flux_fraction".toList = some (.num f))
    (ha : m.evaluateSingle noKw times waves st r kw = .ok (a, r')) :
    (m.addEffect (constantDimming s rest) skip).evaluateSingle noKw times waves st r kw =
      .ok (a.map fun row => row.map fun x => f * x, r') := by
  cases rest with
  | false =>
    rw [evaluate_observer m (constantDimming s false) rfl skip noKw kw times waves st r p hp, ha]
    simp only [constantDimming, fraction_num hf, mul_comm]
  | true =>
    have base := evaluate_plain m (hm rfl) noKw kw times waves st r p hp zs hz
    rw [ha] at base
    rw [evaluate_rest m (constantDimming s true) rfl (hm rfl) skip noKw kw times waves st r p hp zs hz]
    cases hs : m.sedExtrapolated noKw (times.map (frameTime zs)) (waves.map (frameWave zs)) st kw with
    | error e => rw [hs] at base; cases base
    | ok sed =>
      rw [hs] at base
      dsimp only at base ⊢
      cases he : applyEffects p (times.map (frameTime zs)) (waves.map (frameWave zs)) m.restEffects r sed with
      | error e => rw [he] at base; cases base
      | ok q =>
        obtain ⟨b, r1⟩ := q
        rw [he] at base
        simp only [Except.ok.injEq, Prod.mk.injEq] at base
        obtain ⟨rfl, rfl⟩ := base
        simp only [constantDimming, fraction_num hf, List.map_map, Except.ok.injEq, Prod.mk.injEq, and_true]
        apply List.map_congr_left
        intro row _
        simp only [Function.comp_apply, List.map_map]
        apply List.map_congr_left
        intro x _
        simp only [Function.comp_apply]
        ring

/-- C93, bandflux models: every bandflux is multiplied by the flux fraction, after the effects added before. -/
theorem C93_bandflux (s : V) (rest : Bool) (m : BandModel V R K) (skip : Bool) (times : List K) (filters : List Name) (st : SState K)
    (r r' : R) (p : Params K) (f : K) (b : List K) (hp : st.get? m.nodeString = some p)
    (hf : p.get? "flux_fraction".toList = some (.num f)) (hb : m.evaluateBandfluxesSingle times filters st r = .ok (b, r')) :
    (m.addEffect (constantDimming s rest) skip).evaluateBandfluxesSingle times filters st r = .ok (b.map fun x => f * x, r') := by
  have h1 : (m.addEffect (constantDimming s rest) skip).nodeString = m.nodeString := by unfold BandModel.addEffect; cases skip <;> rfl
  have h2 : (m.addEffect (constantDimming s rest) skip).computeBandflux = m.computeBandflux := by unfold BandModel.addEffect; cases skip <;> rfl
  have h3 : (m.addEffect (constantDimming s rest) skip).effects = m.effects ++ [constantDimming s rest] := by
    unfold BandModel.addEffect; cases skip <;> rfl
  have happ : ∀ (es : List (Effect V R K)) (r : R) (x : List K),
      applyBandEffects p times filters es r x = .ok (b, r') →
      applyBandEffects p times filters (es ++ [constantDimming s rest]) r x = .ok (b.map fun x => f * x, r') := by
    intro es
    induction es with
    | nil =>
      intro r x h
      simp only [applyBandEffects, Except.ok.injEq, Prod.mk.injEq] at h
      obtain ⟨rfl, rfl⟩ := h
      simp only [List.nil_append, applyBandEffects, constantDimming, fraction_num hf, mul_comm]
    | cons e es ih =>
      intro r x h
      simp only [applyBandEffects] at h
      simp only [List.cons_append, applyBandEffects]
      cases he : e.applyBand p times filters r x with
      | error err => rw [he] at h; cases h
      | ok q => rw [he] at h; exact ih _ _ h
  unfold BandModel.evaluateBandfluxesSingle localParams at hb ⊢
  rw [h1, h2, h3, hp]
  rw [hp] at hb
  dsimp only at hb ⊢
  cases hc : m.computeBandflux times filters st r with
  | error e => rw [hc] at hb; cases hb
  | ok q =>
    rw [hc] at hb
    exact happ _ _ _ hb

/-- C93: a missing flux fraction raises ValueError. -/
theorem C93_missing (s : V) (rest : Bool) (p : Params K)
    (h : p.get? "flux_fraction".toList = none ∨ p.get? "flux_fraction".toList = some .none) (times waves : List K) (filters : List Name)
    (r : R) (a : Mat K) (b : List K) :
    (constantDimming s rest : Effect V R K).apply p times waves r a = .error .valueError ∧
    (constantDimming s rest : Effect V R K).applyBand p times filters r b = .error .valueError := by
  have : fluxFraction p = .error .valueError := by
    unfold fluxFraction
    rcases h with h | h <;> rw [h]
  simp only [constantDimming, this, and_self]

/-- The hypotheses are met: half the light of a flat source at redshift 1. -/
example : let m : SEDModel Unit Unit Unit ℚ :=
      ⟨"s".toList, [], fun _ _ ts ws => .ok (ts.map fun _ => ws.map fun _ => 50), fun _ => none, fun _ => none, none, true, [], []⟩
    let st : SState ℚ := [("s".toList, [("redshift".toList, .num 1), ("t0".toList, .num 0), ("flux_fraction".toList, .num (1 / 2))])]
    (m.addEffect (constantDimming () true)).evaluateSingle () [3, 4] [2000] st () () = .ok ([[50], [50]], ()) := by
  intro m st
  have := C93_evaluate () true m (fun _ => rfl) false () () [3, 4] [2000] st () () _ (some (1, 0)) (1 / 2) [[100], [100]] rfl
    (.shifted rfl (by norm_num) rfl rfl) rfl (by decide +kernel)
  rw [this]
  norm_num

end LCL.DimmingProps
