import Verif.Props.Physical

/-!
# Evaluating a model with one more effect
-/

namespace LCL.EffectAdd
open LCL LCL.PhysSpec LCL.PhysicalProps
variable {K : Type} [Field K] [LinearOrder K] {V W R : Type}

theorem applyEffects_append (p : Params K) (times waves : List K) (es : List (Effect V R K)) (e : Effect V R K) (r : R) (a : Mat K) :
    applyEffects p times waves (es ++ [e]) r a =
      match applyEffects p times waves es r a with
      | .error err => .error err
      | .ok (b, r') => e.apply p times waves r' b := by
  induction es generalizing r a with
  | nil =>
    simp only [List.nil_append, applyEffects]
    cases e.apply p times waves r a <;> rfl
  | cons e' es ih =>
    simp only [List.cons_append, applyEffects]
    cases h : e'.apply p times waves r a with
    | error err => rfl
    | ok q => exact ih _ _

theorem sed_addEffect (m : SEDModel V W R K) (e : Effect V R K) (skip : Bool) (noKw kw : W) (times waves : List K) (st : SState K) :
    (m.addEffect e skip).sedExtrapolated noKw times waves st kw = m.sedExtrapolated noKw times waves st kw := by
  apply sedExtrapolated_congr <;> (unfold SEDModel.addEffect; cases skip <;> cases e.restFrame <;> rfl)

/-- An observer-frame effect is applied to the result of the evaluation without it. -/
theorem evaluate_observer (m : SEDModel V W R K) (e : Effect V R K) (he : e.restFrame = false) (skip : Bool) (noKw kw : W)
    (times waves : List K) (st : SState K) (r : R) (p : Params K) (hp : st.get? m.nodeString = some p) :
    (m.addEffect e skip).evaluateSingle noKw times waves st r kw =
      match m.evaluateSingle noKw times waves st r kw with
      | .error err => .error err
      | .ok (a, r') => e.apply p times waves r' a := by
  unfold SEDModel.evaluateSingle
  rw [show (m.addEffect e skip).nodeString = m.nodeString by unfold SEDModel.addEffect; cases skip <;> simp [he],
    show (m.addEffect e skip).applyRedshift = m.applyRedshift by unfold SEDModel.addEffect; cases skip <;> simp [he],
    show (m.addEffect e skip).restEffects = m.restEffects by unfold SEDModel.addEffect; cases skip <;> simp [he],
    show (m.addEffect e skip).obsEffects = m.obsEffects ++ [e] by unfold SEDModel.addEffect; cases skip <;> simp [he]]
  simp only [sed_addEffect, localParams, hp]
  cases redshiftOf m.applyRedshift p with
  | error err => rfl
  | ok zs =>
    dsimp only
    cases m.sedExtrapolated noKw (restTimesOf zs times) (restWavesOf zs waves) st kw with
    | error err => rfl
    | ok a =>
      dsimp only
      cases applyEffects p (restTimesOf zs times) (restWavesOf zs waves) m.restEffects r a with
      | error err => rfl
      | ok q =>
        dsimp only
        rw [applyEffects_append]

/-- A rest-frame effect, on a model without observer-frame effects: it is given the flux before scaling. -/
theorem evaluate_rest (m : SEDModel V W R K) (e : Effect V R K) (he : e.restFrame = true) (ho : m.obsEffects = []) (skip : Bool)
    (noKw kw : W) (times waves : List K) (st : SState K) (r : R) (p : Params K) (hp : st.get? m.nodeString = some p)
    (zs : Option (K × K)) (hz : Frame m.applyRedshift p zs) :
    (m.addEffect e skip).evaluateSingle noKw times waves st r kw =
      match m.sedExtrapolated noKw (times.map (frameTime zs)) (waves.map (frameWave zs)) st kw with
      | .error err => .error err
      | .ok a => match applyEffects p (times.map (frameTime zs)) (waves.map (frameWave zs)) m.restEffects r a with
        | .error err => .error err
        | .ok (a, r) => match e.apply p (times.map (frameTime zs)) (waves.map (frameWave zs)) r a with
          | .error err => .error err
          | .ok (a, r) => .ok (a.map (fun row => row.map fun x => x * frameFactor zs), r) := by
  unfold SEDModel.evaluateSingle
  rw [show (m.addEffect e skip).nodeString = m.nodeString by unfold SEDModel.addEffect; cases skip <;> simp [he],
    show (m.addEffect e skip).applyRedshift = m.applyRedshift by unfold SEDModel.addEffect; cases skip <;> simp [he],
    show (m.addEffect e skip).restEffects = m.restEffects ++ [e] by unfold SEDModel.addEffect; cases skip <;> simp [he],
    show (m.addEffect e skip).obsEffects = [] by unfold SEDModel.addEffect; cases skip <;> simp [he, ho]]
  simp only [sed_addEffect, localParams, hp, (redshiftOf_iff _ _ _).2 hz, restTimes_eq, restWaves_eq, scaled_eq]
  cases m.sedExtrapolated noKw (times.map (frameTime zs)) (waves.map (frameWave zs)) st kw with
  | error err => rfl
  | ok a =>
    dsimp only
    rw [applyEffects_append]
    cases applyEffects p (times.map (frameTime zs)) (waves.map (frameWave zs)) m.restEffects r a with
    | error err => rfl
    | ok q =>
      dsimp only
      cases e.apply p (times.map (frameTime zs)) (waves.map (frameWave zs)) q.2 q.1 <;> rfl

/-- The evaluation without observer-frame effects. -/
theorem evaluate_plain (m : SEDModel V W R K) (ho : m.obsEffects = []) (noKw kw : W) (times waves : List K) (st : SState K) (r : R)
    (p : Params K) (hp : st.get? m.nodeString = some p) (zs : Option (K × K)) (hz : Frame m.applyRedshift p zs) :
    m.evaluateSingle noKw times waves st r kw =
      match m.sedExtrapolated noKw (times.map (frameTime zs)) (waves.map (frameWave zs)) st kw with
      | .error err => .error err
      | .ok a => match applyEffects p (times.map (frameTime zs)) (waves.map (frameWave zs)) m.restEffects r a with
        | .error err => .error err
        | .ok (a, r) => .ok (a.map (fun row => row.map fun x => x * frameFactor zs), r) := by
  unfold SEDModel.evaluateSingle
  simp only [ho, localParams, hp, (redshiftOf_iff _ _ _).2 hz, restTimes_eq, restWaves_eq, scaled_eq]
  cases m.sedExtrapolated noKw (times.map (frameTime zs)) (waves.map (frameWave zs)) st kw with
  | error err => rfl
  | ok a =>
    dsimp only
    cases applyEffects p (times.map (frameTime zs)) (waves.map (frameWave zs)) m.restEffects r a <;> rfl

end LCL.EffectAdd
