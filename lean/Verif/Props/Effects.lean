import Verif.Props.Physical

/-!
# Properties C65 (keyword arguments reach the model) and C66 (an effect's own parameters take effect)
-/

namespace LCL.EffectProps
open LCL LCL.PhysSpec LCL.PhysLemmas LCL.PhysicalProps
variable {K : Type} [Field K] [LinearOrder K] {V W R : Type}

/-! ## C65 -/

/-- C65, the part that holds: when every requested wavelength lies within the model's limits, compute_sed is
called with the keyword arguments given to evaluate_sed. Missing: requests with a wavelength outside the
limits (see `C65_dropped_counterexample`). -/
theorem C65_in_range_partial (m : SEDModel V W R K) (noKw kw : W) (times waves : List K) (st : SState K)
    (hne : waves ≠ []) (hlo : ∀ l, m.minwave st = some l → ∀ w ∈ waves, l ≤ w)
    (hhi : ∀ h, m.maxwave st = some h → ∀ w ∈ waves, w ≤ h) :
    m.sedExtrapolated noKw times waves st kw = m.computeSed kw st times waves := by
  unfold SEDModel.sedExtrapolated
  cases h1 : npMin waves with
  | none => exact absurd (npMin_none h1) hne
  | some qlo =>
    cases h2 : npMax waves with
    | none => exact absurd (npMax_none h2) hne
    | some qhi =>
      have c1 : (m.minwave st).getD qlo ≤ qlo := by
        cases h : m.minwave st with
        | none => simp
        | some l => exact hlo l h _ (npMin_spec h1).1
      have c2 : qhi ≤ (m.maxwave st).getD qhi := by
        cases h : m.maxwave st with
        | none => simp
        | some l => exact hhi l h _ (npMax_spec h2).1
      simp only
      rw [if_pos ⟨c1, c2⟩]

theorem dropped (m : SEDModel V W R K) (noKw kw kw' : W) (times waves : List K) (st : SState K)
    (h : (∃ l, m.minwave st = some l ∧ ∃ w ∈ waves, w < l) ∨ ∃ l, m.maxwave st = some l ∧ ∃ w ∈ waves, l < w) :
    m.sedExtrapolated noKw times waves st kw = m.sedExtrapolated noKw times waves st kw' := by
  unfold SEDModel.sedExtrapolated
  cases h1 : npMin waves with
  | none => rfl
  | some qlo =>
    cases h2 : npMax waves with
    | none => rfl
    | some qhi =>
      simp only
      have hn : ¬ ((m.minwave st).getD qlo ≤ qlo ∧ qhi ≤ (m.maxwave st).getD qhi) := by
        rintro ⟨a, b⟩
        rcases h with ⟨l, hl, w, hw, hlt⟩ | ⟨l, hl, w, hw, hlt⟩
        · rw [hl] at a
          exact absurd (lt_of_lt_of_le hlt (le_trans a ((npMin_spec h1).2 w hw))) (lt_irrefl _)
        · rw [hl] at b
          exact absurd (lt_of_lt_of_le hlt (le_trans ((npMax_spec h2).2 w hw) b)) (lt_irrefl _)
      rw [if_neg hn, if_neg hn]

/-- C65 fails once one requested wavelength (in the frame of the source) is outside the model's limits: the
whole result, also at the wavelengths inside, is then the same whatever keyword arguments are given. -/
theorem C65_dropped_counterexample (m : SEDModel V W R K) (noKw kw kw' : W) (times waves : List K) (st : SState K) (r : R)
    (h : ∀ p zs, st.get? m.nodeString = some p → Frame m.applyRedshift p zs →
      (∃ l, m.minwave st = some l ∧ ∃ w ∈ waves, frameWave zs w < l) ∨
      ∃ l, m.maxwave st = some l ∧ ∃ w ∈ waves, l < frameWave zs w) :
    m.evaluateSingle noKw times waves st r kw = m.evaluateSingle noKw times waves st r kw' := by
  unfold SEDModel.evaluateSingle localParams
  cases hp : st.get? m.nodeString with
  | none => rfl
  | some p =>
    simp only
    cases hz : redshiftOf m.applyRedshift p with
    | error e => rfl
    | ok zs =>
      simp only
      have hf := (redshiftOf_iff _ _ _).1 hz
      rw [restTimes_eq, restWaves_eq, dropped m noKw kw kw' _ _ st]
      rcases h p zs hp hf with ⟨l, hl, w, hw, hlt⟩ | ⟨l, hl, w, hw, hlt⟩
      · exact Or.inl ⟨l, hl, _, List.mem_map_of_mem hw, hlt⟩
      · exact Or.inr ⟨l, hl, _, List.mem_map_of_mem hw, hlt⟩

/-- A source whose flux is its keyword argument, defined on wavelengths 1 to 10. -/
def kwSource : SEDModel Unit ℚ Unit ℚ where
  nodeString := "s".toList
  setters := []
  computeSed := fun kw _ ts ws => .ok (ts.map fun _ => ws.map fun _ => kw)
  minwave := fun _ => some 1
  maxwave := fun _ => some 10
  extrap := none
  applyRedshift := false
  restEffects := []
  obsEffects := []

/-- The hypotheses of both theorems are met, and the keyword argument matters: flux 7 inside the limits, but
at the same wavelength flux 0 once 11 is also asked for. -/
example : kwSource.evaluateSingle 0 [0] [5] [("s".toList, [])] () 7 = .ok ([[7]], ()) ∧
    kwSource.evaluateSingle 0 [0] [5, 11] [("s".toList, [])] () 7 = .ok ([[0, 0]], ()) := by
  constructor <;> rfl

example : kwSource.sedExtrapolated 0 [0] [5, 2] [] 7 = kwSource.computeSed 7 [] [0] [5, 2] := by
  apply C65_in_range_partial
  · simp
  · intro l hl w hw; cases hl; simp at hw; rcases hw with rfl | rfl <;> norm_num
  · intro l hl w hw; cases hl; simp at hw; rcases hw with rfl | rfl <;> norm_num

/-! ## C66 -/

theorem addMissing_get (setters : Dict Name V) (ps : Dict Name V) (hn : ps.keys.Nodup) (k : Name) :
    Dict.get? (addMissing setters ps) k =
      match Dict.get? setters k with
      | some v => some v
      | none => Dict.get? ps k := by
  unfold addMissing
  induction ps generalizing setters with
  | nil => simp; cases Dict.get? setters k <;> rfl
  | cons q ps ih =>
    obtain ⟨a, b⟩ := q
    simp only [List.foldl_cons]
    have hn' : a ∉ Dict.keys ps ∧ (Dict.keys ps).Nodup := by simpa using hn
    rw [ih _ hn'.2]
    by_cases hh : Dict.has setters a = true
    · rw [if_pos hh]
      cases hk : Dict.get? setters k with
      | some v => rfl
      | none =>
        simp only
        rw [Dict.get?_cons]
        have : a ≠ k := by
          rintro rfl
          unfold Dict.has at hh
          rw [hk] at hh
          cases hh
        rw [if_neg this]
    · rw [if_neg hh, Dict.get?_set, Dict.get?_cons]
      by_cases hak : a = k
      · subst hak
        have hs : Dict.get? setters a = none := by
          unfold Dict.has at hh
          cases h : Dict.get? setters a with
          | none => rfl
          | some v => rw [h] at hh; simp at hh
        simp [hs]
      · simp only [if_neg hak]

/-- C66, the part that holds: when the model has no parameter of the effect's names, adding the effect gives
the model exactly the effect's parameters, with the effect's own values, and changes no other parameter.
Missing: effects with a parameter name the model (or an earlier effect) already has (see
`C66_ignored_counterexample`). -/
theorem C66_fresh_partial (m : SEDModel V W R K) (e : Effect V R K) (hn : e.parameters.keys.Nodup)
    (hfresh : ∀ k ∈ e.parameters.keys, k ∉ m.setters.keys) :
    (∀ k v, (k, v) ∈ e.parameters → (m.addEffect e).setters.get? k = some v) ∧
    (∀ k, k ∉ e.parameters.keys → (m.addEffect e).setters.get? k = m.setters.get? k) ∧
    (m.addEffect e true).setters = m.setters := by
  have hs : (m.addEffect e).setters = addMissing m.setters e.parameters := by
    unfold SEDModel.addEffect; dsimp only; split <;> rfl
  refine ⟨?_, ?_, ?_⟩
  · intro k v h
    rw [hs, addMissing_get _ _ hn]
    have hk : k ∈ e.parameters.keys := List.mem_map_of_mem (f := (·.1)) h
    have h0 : Dict.get? m.setters k = none := (Dict.get?_eq_none_iff _ _).2 (hfresh k hk)
    simp [h0, Dict.get?_of_mem hn h]
  · intro k h
    rw [hs, addMissing_get _ _ hn, (Dict.get?_eq_none_iff _ _).2 h]
    cases Dict.get? m.setters k <;> rfl
  · unfold SEDModel.addEffect; dsimp only; split <;> rfl

/-- The hypotheses of `C66_fresh_partial` are met by a dimming added to a model without such a parameter. -/
example : ((kwSource.addEffect (constantDimming () true)).setters.get? "flux_fraction".toList) = some () :=
  (C66_fresh_partial kwSource (constantDimming () true) (by simp [constantDimming])
    (by simp [constantDimming, kwSource])).1 _ _ (by simp [constantDimming])

/-- The state sampled from constant setters: each parameter has its setter's value. -/
def constState (m : SEDModel K W R K) : SState K := [(m.nodeString, m.setters.map fun q => (q.1, PVal.num q.2))]

theorem get?_num (d : Dict Name K) (k : Name) :
    Dict.get? (d.map fun q => (q.1, PVal.num q.2)) k = (Dict.get? d k).map PVal.num := by
  induction d with
  | nil => rfl
  | cons q d ih =>
    obtain ⟨a, b⟩ := q
    simp only [List.map_cons, Dict.get?_cons]
    split
    · rfl
    · exact ih

/-- C66 fails: adding a constant dimming by `f` and then one by `g` multiplies the flux by `f * f`, not by
`f * g`, whatever `g` is. -/
theorem C66_ignored_counterexample (m : SEDModel K W R K) (hm : m.restEffects = [] ∧ m.obsEffects = [])
    (hset : "flux_fraction".toList ∉ m.setters.keys) (hr : m.applyRedshift = false) (f g : K) (noKw kw : W)
    (times waves : List K) (r : R) (sed : Mat K) :
    let m' := (m.addEffect (constantDimming f false)).addEffect (constantDimming g false)
    m'.sedExtrapolated noKw times waves (constState m') kw = .ok sed →
    m'.evaluateSingle noKw times waves (constState m') r kw =
      .ok (sed.map fun row => row.map fun x => x * (f * f), r) := by
  intro m' hsed
  rw [evaluateSingle_iff]
  refine ⟨m'.setters.map fun q => (q.1, PVal.num q.2), none, sed, (sed, r), ?_, ?_, ?_, ?_, ?_⟩
  · simp [constState, Dict.get?_cons]
  · exact .off (by simpa [m', SEDModel.addEffect, constantDimming] using hr)
  · rw [← restTimes_eq, ← restWaves_eq]; exact hsed
  · have : m'.restEffects = [] := by simp [m', SEDModel.addEffect, constantDimming, hm.1]
    rw [this]; exact .nil _
  · have hobs : m'.obsEffects = [constantDimming f false, constantDimming g false] := by
      simp [m', SEDModel.addEffect, constantDimming, hm.2]
    have hs : m'.setters = addMissing (addMissing m.setters [("flux_fraction".toList, f)]) [("flux_fraction".toList, g)] := by
      simp only [m', SEDModel.addEffect, constantDimming]
      simp
    have hg : fluxFraction (m'.setters.map fun q => (q.1, PVal.num q.2)) = .ok f := by
      unfold fluxFraction
      rw [get?_num, hs, addMissing_get _ _ (by simp), addMissing_get _ _ (by simp),
        (Dict.get?_eq_none_iff _ _).2 hset]
      simp [Dict.get?_cons]
    rw [hobs]
    refine .cons (y := (sed.map fun row => row.map fun x => x * f, r)) ?_ (.cons (y := _) ?_ (.nil _))
    · simp [constantDimming, hg, frameFactor]
    · simp [constantDimming, hg, mul_assoc, Function.comp_def]

/-- A source of flux 20. -/
def plain20 : SEDModel ℚ Unit Unit ℚ where
  nodeString := "s".toList
  setters := []
  computeSed := fun _ _ ts ws => .ok (ts.map fun _ => ws.map fun _ => 20)
  minwave := fun _ => none
  maxwave := fun _ => none
  extrap := none
  applyRedshift := false
  restEffects := []
  obsEffects := []

/-- The hypotheses are met: dimming 20 by 1/2 and by 1/10 gives 5, not 1. -/
example : ((plain20.addEffect (constantDimming (1/2) false)).addEffect (constantDimming (1/10) false)).evaluateSingle
    () [0] [5] [("s".toList, [("flux_fraction".toList, .num (1/2))])] () () = .ok ([[5]], ()) := by
  have := C66_ignored_counterexample plain20 ⟨rfl, rfl⟩ (by simp [plain20]) rfl (1/2) (1/10) () () [0] [5] () [[20]] rfl
  norm_num at this
  exact this

end LCL.EffectProps
