import Verif.Model.EffectLib
import Verif.Lemmas.EffectAdd
import Verif.Lemmas.Physical
import Verif.Props.Bandfluxes
import Mathlib.Analysis.SpecificLimits.Basic
import Mathlib.Topology.Algebra.Order.Field

/-!
# Property C90: microlensing
-/

namespace LCL.LensProps
open LCL LCL.PhysSpec LCL.PhysicalProps LCL.EffectLib LCL.EffectAdd LCL.PhysLemmas
variable {V W R : Type}

/-- The squared separation of source and lens, in Einstein radii, for uniform motion with closest approach `u0` at `t0`. -/
noncomputable def sep2 (u0 tE t0 t : ℝ) : ℝ := u0 ^ 2 + ((t - t0) / tE) ^ 2

/-- Paczynski's magnification of a point source by a point lens. -/
noncomputable def paczynski (s : ℝ) : ℝ := (s + 2) / Real.sqrt (s * (s + 4))

theorem pspl_eq {u0 tE : ℝ} (hu : 0 < u0) (ht : 0 < tE) (t0 t : ℝ) :
    pspl (Real.log u0) (Real.log tE) t0 t = paczynski (sep2 u0 tE t0 t) := by
  have h1 : ((t - t0) * Real.exp (-Real.log tE)) ^ 2 + Real.exp (Real.log u0) ^ 2 = sep2 u0 tE t0 t := by
    rw [Real.exp_neg, Real.exp_log ht, Real.exp_log hu, sep2, div_eq_mul_inv]
    ring
  have h0 : 0 ≤ sep2 u0 tE t0 t := by unfold sep2; positivity
  unfold pspl paczynski
  dsimp only
  rw [h1, Real.sq_sqrt h0, ← Real.sqrt_mul h0]

theorem sep2_pos {u0 : ℝ} (hu : 0 < u0) (tE t0 t : ℝ) : 0 < sep2 u0 tE t0 t := by
  unfold sep2; positivity

theorem pac_sq {s : ℝ} (hs : 0 < s) : paczynski s ^ 2 = 1 + 4 / (s * (s + 4)) := by
  have h : 0 < s * (s + 4) := by positivity
  unfold paczynski
  rw [div_pow, Real.sq_sqrt h.le]
  field_simp
  ring

theorem pac_pos {s : ℝ} (hs : 0 < s) : 0 < paczynski s := by
  have h : 0 < s * (s + 4) := by positivity
  exact div_pos (by linarith) (Real.sqrt_pos.2 h)

theorem pac_gt {s : ℝ} (hs : 0 < s) : 1 < paczynski s := by
  have h : 0 < 4 / (s * (s + 4)) := by positivity
  have := pac_sq hs
  nlinarith [pac_pos hs]

theorem pac_anti {s s' : ℝ} (hs : 0 < s) (h : s < s') : paczynski s' < paczynski s := by
  have hs' : 0 < s' := hs.trans h
  have h1 : 4 / (s' * (s' + 4)) < 4 / (s * (s + 4)) := by
    apply div_lt_div_of_pos_left (by norm_num) (by positivity)
    nlinarith
  have h2 := pac_sq hs
  have h3 := pac_sq hs'
  by_contra hc
  push Not at hc
  have := mul_self_le_mul_self (pac_pos hs).le hc
  nlinarith

theorem sep2_lt {u0 tE : ℝ} (ht : 0 < tE) (t0 t t' : ℝ) : sep2 u0 tE t0 t < sep2 u0 tE t0 t' ↔ |t - t0| < |t' - t0| := by
  unfold sep2
  rw [add_lt_add_iff_left, sq_lt_sq, abs_div, abs_div, div_lt_div_iff_of_pos_right (abs_pos.2 ht.ne')]

/-- C90, the magnification: for a positive impact parameter and time scale it is always above 1, is the same before and after
the peak, falls strictly with the distance in time from the peak, and tends to 1 far from it. -/
theorem C90_magnification {u0 tE : ℝ} (hu : 0 < u0) (ht : 0 < tE) (t0 : ℝ) :
    (∀ t, pspl (Real.log u0) (Real.log tE) t0 t =
      (u0 ^ 2 + ((t - t0) / tE) ^ 2 + 2) / Real.sqrt ((u0 ^ 2 + ((t - t0) / tE) ^ 2) * (u0 ^ 2 + ((t - t0) / tE) ^ 2 + 4))) ∧
    (∀ t, 1 < pspl (Real.log u0) (Real.log tE) t0 t) ∧
    (∀ d, pspl (Real.log u0) (Real.log tE) t0 (t0 + d) = pspl (Real.log u0) (Real.log tE) t0 (t0 - d)) ∧
    (∀ t t', |t - t0| < |t' - t0| ↔ pspl (Real.log u0) (Real.log tE) t0 t' < pspl (Real.log u0) (Real.log tE) t0 t) ∧
    Filter.Tendsto (pspl (Real.log u0) (Real.log tE) t0) Filter.atTop (nhds 1) := by
  have hlt : ∀ t t', |t - t0| < |t' - t0| → pspl (Real.log u0) (Real.log tE) t0 t' < pspl (Real.log u0) (Real.log tE) t0 t := by
    intro t t' h
    rw [pspl_eq hu ht, pspl_eq hu ht]
    exact pac_anti (sep2_pos hu _ _ _) ((sep2_lt ht _ _ _).2 h)
  have heq : ∀ t t', |t - t0| = |t' - t0| → pspl (Real.log u0) (Real.log tE) t0 t' = pspl (Real.log u0) (Real.log tE) t0 t := by
    intro t t' h
    rw [pspl_eq hu ht, pspl_eq hu ht]
    congr 1
    unfold sep2
    rw [div_pow, div_pow, ← sq_abs (t' - t0), ← sq_abs (t - t0), h]
  refine ⟨fun t => pspl_eq hu ht t0 t, fun t => ?_, fun d => ?_, fun t t' => ⟨hlt t t', fun h => ?_⟩, ?_⟩
  · rw [pspl_eq hu ht]; exact pac_gt (sep2_pos hu _ _ _)
  · apply heq; simp
  · by_contra hc
    push Not at hc
    rcases hc.lt_or_eq with h' | h'
    · exact absurd (hlt t' t h') (not_lt.2 h.le)
    · exact absurd (heq t' t h') h.ne'
  · have hs : Filter.Tendsto (sep2 u0 tE t0) Filter.atTop Filter.atTop := by
      have h1 : Filter.Tendsto (fun t : ℝ => (t - t0) / tE) Filter.atTop Filter.atTop :=
        Filter.Tendsto.atTop_div_const ht (Filter.tendsto_atTop_add_const_right _ (-t0) Filter.tendsto_id)
      exact Filter.tendsto_atTop_add_const_left _ _ ((Filter.tendsto_pow_atTop (by norm_num)).comp h1)
    have hb : Filter.Tendsto (fun t => 1 + 4 / sep2 u0 tE t0 t) Filter.atTop (nhds 1) := by
      have := (Filter.Tendsto.div_atTop (tendsto_const_nhds (x := (4 : ℝ))) hs).const_add 1
      simpa using this
    refine tendsto_of_tendsto_of_tendsto_of_le_of_le' tendsto_const_nhds hb ?_ ?_
    · exact Filter.Eventually.of_forall fun t => by
        rw [pspl_eq hu ht]; exact (pac_gt (sep2_pos hu _ _ _)).le
    · refine Filter.Eventually.of_forall fun t => ?_
      show pspl (Real.log u0) (Real.log tE) t0 t ≤ _
      rw [pspl_eq hu ht]
      have hp := sep2_pos hu tE t0 t
      have h2 := pac_sq hp
      have h3 : 4 / (sep2 u0 tE t0 t * (sep2 u0 tE t0 t + 4)) ≤ 4 / sep2 u0 tE t0 t := by
        apply div_le_div_of_nonneg_left (by norm_num) hp
        nlinarith
      have h4 : 0 < 4 / sep2 u0 tE t0 t := by positivity
      by_contra hc
      push Not at hc
      nlinarith [pac_pos hp]

/-! ## The effect -/

/-- The node's parameters describe an event with the given peak, impact parameter and time scale. -/
def Event (p : Params ℝ) (t0 u0 tE : ℝ) : Prop :=
  p.get? "microlensing_t0".toList = some (.num t0) ∧ p.get? "u_0".toList = some (.num u0) ∧ p.get? "t_E".toList = some (.num tE)

/-- The value of the switch: drawn False, an empty text, or never set. -/
def SwitchedOff (p : Params ℝ) : Prop :=
  p.get? "apply_microlensing".toList = some (.num 0) ∨ p.get? "apply_microlensing".toList = some (.str []) ∨ p.get? "apply_microlensing".toList = some .none ∨
    p.get? "apply_microlensing".toList = none

/-- Any number but zero, or any text but the empty one, switches the effect on. -/
def SwitchedOn (p : Params ℝ) : Prop :=
  (∃ x, x ≠ 0 ∧ p.get? "apply_microlensing".toList = some (.num x)) ∨ ∃ s, s ≠ [] ∧ p.get? "apply_microlensing".toList = some (.str s)

theorem on_truthy {p : Params ℝ} (h : SwitchedOn p) : truthy (p.get? applyKey) := by
  rcases h with ⟨x, hx, h⟩ | ⟨x, hx, h⟩ <;> rw [show p.get? applyKey = _ from h] <;> exact hx

theorem off_not {p : Params ℝ} (h : SwitchedOff p) : ¬ truthy (p.get? applyKey) := by
  rcases h with h | h | h | h <;> rw [show p.get? applyKey = _ from h] <;> simp [truthy]

theorem required_num {p : Params ℝ} {k : Name} {x : ℝ} (h : p.get? k = some (.num x)) : required p k = .ok x := by
  unfold required; rw [h]

theorem mags {p : Params ℝ} {t0 u0 tE : ℝ} (h : Event p t0 u0 tE) (times : List ℝ) :
    magnifications p times = .ok (times.map (pspl (Real.log u0) (Real.log tE) t0)) := by
  unfold magnifications lensT0Key u0Key tEKey
  rw [required_num h.1, required_num h.2.1, required_num h.2.2]

/-- C90: the constructor. The effect always acts in the observer frame; with a probability of at least 1 it is always
switched on, with one in [0, 1) the switch is drawn from a BinarySampler with that probability, a negative one raises
ValueError, and so does (TypeError) an attempt to set the frame. -/
theorem C90_constructor (binary : ℝ → V) (always t0 u0 tE : V) (q : ℝ) (kwargs : Dict Name V) :
    (∀ e : Effect V R ℝ, microlensing binary always t0 u0 tE q kwargs = .ok e →
      e.restFrame = false ∧ e.parameters.get? "microlensing_t0".toList = some t0 ∧ e.parameters.get? "u_0".toList = some u0 ∧
      e.parameters.get? "t_E".toList = some tE ∧
      e.parameters.get? "apply_microlensing".toList = some (if q < 1 then binary q else always)) ∧
    ((∃ e : Effect V R ℝ, microlensing binary always t0 u0 tE q kwargs = .ok e) ↔ 0 ≤ q ∧ "rest_frame".toList ∉ kwargs.keys) := by
  have hh : kwargs.has "rest_frame".toList = true ↔ "rest_frame".toList ∈ kwargs.keys := by
    unfold Dict.has
    rw [Option.isSome_iff_ne_none, ne_eq, Dict.get?_eq_none_iff, not_not]
  have n1 : applyKey ≠ lensT0Key := by decide
  have n2 : applyKey ≠ u0Key := by decide
  have n3 : applyKey ≠ tEKey := by decide
  have n4 : tEKey ≠ lensT0Key := by decide
  have n5 : tEKey ≠ u0Key := by decide
  have n6 : u0Key ≠ lensT0Key := by decide
  constructor
  · intro e h
    unfold microlensing at h
    split at h
    · cases h
    · unfold applySetter at h
      have hp : ∀ (d : Dict Name V) (s : V),
          Dict.get? ((((d.set lensT0Key t0).set u0Key u0).set tEKey tE).set applyKey s) lensT0Key = some t0 ∧
          Dict.get? ((((d.set lensT0Key t0).set u0Key u0).set tEKey tE).set applyKey s) u0Key = some u0 ∧
          Dict.get? ((((d.set lensT0Key t0).set u0Key u0).set tEKey tE).set applyKey s) tEKey = some tE ∧
          Dict.get? ((((d.set lensT0Key t0).set u0Key u0).set tEKey tE).set applyKey s) applyKey = some s := by
        intro d s
        refine ⟨?_, ?_, ?_, Dict.get?_set_self _ _ _⟩
        · rw [Dict.get?_set_ne _ _ n1, Dict.get?_set_ne _ _ n4, Dict.get?_set_ne _ _ n6, Dict.get?_set_self]
        · rw [Dict.get?_set_ne _ _ n2, Dict.get?_set_ne _ _ n5, Dict.get?_set_self]
        · rw [Dict.get?_set_ne _ _ n3, Dict.get?_set_self]
      by_cases hq : q < 1
      · rw [if_pos hq] at h
        by_cases hq2 : q < 0 ∨ 1 < q
        · rw [if_pos hq2] at h; cases h
        · rw [if_neg hq2] at h
          cases h
          rw [if_pos hq]
          exact ⟨rfl, hp _ _⟩
      · rw [if_neg hq] at h
        cases h
        rw [if_neg hq]
        exact ⟨rfl, hp _ _⟩
  · rw [← hh]
    unfold microlensing
    by_cases hk : kwargs.has "rest_frame".toList = true
    · rw [if_pos hk]
      constructor
      · rintro ⟨e, h⟩; cases h
      · rintro ⟨-, h⟩; exact absurd hk h
    · rw [if_neg hk]
      simp only [hk, Bool.false_eq_true, not_false_eq_true, and_true]
      unfold applySetter
      by_cases hq : q < 1
      · rw [if_pos hq]
        by_cases hq2 : q < 0 ∨ 1 < q
        · rw [if_pos hq2]
          constructor
          · rintro ⟨e, he⟩; cases he
          · intro h
            rcases hq2 with h' | h' <;> linarith
        · rw [if_neg hq2]
          push Not at hq2
          exact ⟨fun _ => hq2.1, fun _ => ⟨_, rfl⟩⟩
      · rw [if_neg hq]
        exact ⟨fun _ => by linarith, fun _ => ⟨_, rfl⟩⟩

theorem lens_apply {binary : ℝ → V} {always t0 u0 tE : V} {q : ℝ} {kwargs : Dict Name V} {e : Effect V R ℝ}
    (h : microlensing binary always t0 u0 tE q kwargs = .ok e) :
    e.restFrame = false ∧
    (∀ p ts ws r a, e.apply p ts ws r a = match microlensingApply p ts a with
      | .error err => .error err
      | .ok b => .ok (b, r)) ∧
    ∀ p ts fs r a, e.applyBand p ts fs r a = match microlensingBand p ts a with
      | .error err => .error err
      | .ok b => .ok (b, r) := by
  unfold microlensing at h
  split at h
  · cases h
  · split at h
    · cases h
    · cases h
      exact ⟨rfl, fun _ _ _ _ _ => rfl, fun _ _ _ _ _ => rfl⟩

/-- C90: adding a microlensing effect to any model (with whatever effects it has) multiplies, at each time, the flux at every
wavelength by the magnification at that observer-frame time; switched off, it changes nothing; switched on with a parameter
missing, the evaluation raises ValueError. -/
theorem C90_evaluate {binary : ℝ → V} {always t0S u0S tES : V} {q : ℝ} {kwargs : Dict Name V} {e : Effect V R ℝ}
    (he : microlensing binary always t0S u0S tES q kwargs = .ok e) (m : SEDModel V W R ℝ) (skip : Bool) (noKw kw : W)
    (times waves : List ℝ) (st : SState ℝ) (r r' : R) (p : Params ℝ) (a : Mat ℝ) (hp : st.get? m.nodeString = some p)
    (ha : m.evaluateSingle noKw times waves st r kw = .ok (a, r')) (hlen : a.length = times.length) :
    (SwitchedOff p → (m.addEffect e skip).evaluateSingle noKw times waves st r kw = .ok (a, r')) ∧
    (SwitchedOn p → ∀ t0 u0 tE, Event p t0 u0 tE → (m.addEffect e skip).evaluateSingle noKw times waves st r kw =
      .ok (List.zipWith (fun row t => row.map fun x => x * pspl (Real.log u0) (Real.log tE) t0 t) a times, r')) ∧
    (SwitchedOn p → (∃ k ∈ ["microlensing_t0".toList, "u_0".toList, "t_E".toList], p.get? k = none ∨ p.get? k = some .none) →
      (∀ k ∈ ["microlensing_t0".toList, "u_0".toList, "t_E".toList], ∀ s, p.get? k ≠ some (.str s)) →
      (m.addEffect e skip).evaluateSingle noKw times waves st r kw = .error .valueError) := by
  obtain ⟨h1, h2, -⟩ := lens_apply he
  have key := evaluate_observer m e h1 skip noKw kw times waves st r p hp
  rw [ha] at key
  dsimp only at key
  rw [h2] at key
  unfold microlensingApply at key
  refine ⟨?_, ?_, ?_⟩
  · intro hoff
    rw [if_neg (off_not hoff)] at key
    exact key
  · intro hon t0 u0 tE hev
    rw [if_pos (on_truthy hon), mags hev] at key
    dsimp only at key
    rw [if_pos (by simpa using hlen)] at key
    rw [key, List.zipWith_map_right]
  · intro hon hmiss hstr
    rw [if_pos (on_truthy hon)] at key
    have hreq : ∀ k ∈ ["microlensing_t0".toList, "u_0".toList, "t_E".toList],
        required p k = .error .valueError ∨ ∃ x, required p k = .ok x := by
      intro k hk
      unfold required
      cases hg : p.get? k with
      | none => exact Or.inl rfl
      | some v =>
        cases v with
        | none => exact Or.inl rfl
        | num x => exact Or.inr ⟨x, rfl⟩
        | str s => exact absurd hg (hstr k hk s)
    have hbad : ∃ k ∈ ["microlensing_t0".toList, "u_0".toList, "t_E".toList], required p k = .error .valueError := by
      obtain ⟨k, hk, hn⟩ := hmiss
      refine ⟨k, hk, ?_⟩
      unfold required
      rcases hn with hn | hn <;> rw [hn]
    have hm : magnifications p times = .error .valueError := by
      unfold magnifications lensT0Key u0Key tEKey
      simp only [List.mem_cons, List.not_mem_nil, or_false, forall_eq_or_imp, forall_eq, exists_eq_or_imp, exists_eq_left] at hreq hbad
      obtain ⟨q1, q2, q3⟩ := hreq
      rcases q1 with q1 | ⟨x1, q1⟩
      · rw [q1]
      · rw [q1]
        dsimp only
        rcases q2 with q2 | ⟨x2, q2⟩
        · rw [q2]
        · rw [q2]
          dsimp only
          rw [q1, q2] at hbad
          rcases hbad with hb | hb | hb
          · cases hb
          · cases hb
          · rw [hb]
    rw [hm] at key
    exact key

/-! ## Spectra and bandfluxes agree -/

theorem trap_scale (c : ℝ) : ∀ (ws f : List ℝ),
    trapCells (List.zip ws (f.map fun x => x * c)) = (trapCells (List.zip ws f)).map fun x => x * c
  | [], _ => by simp [trapCells]
  | _ :: _, [] => by simp [trapCells]
  | [_], _ :: _ => by simp [trapCells]
  | _ :: _ :: _, [_] => by simp [trapCells]
  | w :: w' :: ws, x :: x' :: f => by
    have := trap_scale c (w' :: ws) (x' :: f)
    simp only [List.map_cons, List.zip_cons_cons, trapCells, List.cons.injEq] at this ⊢
    exact ⟨by ring, this⟩

theorem sum_scale (c : ℝ) (l : List ℝ) : (l.map fun x => x * c).sum = l.sum * c := by
  induction l with
  | nil => simp
  | cons x l ih => simp [ih, add_mul]

theorem integrate_scale (pb : Passband ℝ) (c : ℝ) (row : List ℝ) : pb.integrate (row.map fun x => x * c) = pb.integrate row * c := by
  have hz : List.zipWith (· * ·) (row.map fun x => x * c) (pb.table.map (·.2)) =
      (List.zipWith (· * ·) row (pb.table.map (·.2))).map fun x => x * c := by
    generalize pb.table.map (·.2) = f
    induction row generalizing f with
    | nil => simp
    | cons x row ih =>
      cases f with
      | nil => simp
      | cons y f =>
        simp only [List.map_cons, List.zipWith_cons_cons, List.cons.injEq]
        exact ⟨by ring, ih f⟩
  unfold Passband.integrate
  rw [hz]
  cases pb.deltaWave with
  | none =>
    simp only [trapezoid]
    rw [trap_scale, sum_scale]
  | some d =>
    simp only
    rw [sum_scale]
    have h1 : ∀ l : List ℝ, (l.map fun x => x * c).headD 0 = l.headD 0 * c := by
      intro l; cases l <;> simp
    have h2 : ∀ l : List ℝ, (l.map fun x => x * c).getLastD 0 = l.getLastD 0 * c := by
      intro l
      cases l with
      | nil => simp
      | cons x l =>
        rw [List.map_cons, List.getLastD_cons, List.getLastD_cons]
        induction l generalizing x with
        | nil => simp
        | cons y l ih => rw [List.map_cons, List.getLastD_cons, List.getLastD_cons]; exact ih y
    rw [h1, h2]
    ring

/-- An effect that multiplies each row by a factor depending on its time only. -/
def scaleRows (c : ℝ → ℝ) (a : Mat ℝ) (ts : List ℝ) : Mat ℝ := List.zipWith (fun row t => row.map fun x => x * c t) a ts

theorem bandflux_scale (pb : Passband ℝ) (c : ℝ → ℝ) (a : Mat ℝ) (ts v : List ℝ) (hlen : a.length = ts.length)
    (h : pb.bandflux a = .ok v) : pb.bandflux (scaleRows c a ts) = .ok (List.zipWith (fun x t => x * c t) v ts) := by
  have hmap : ∀ (a : Mat ℝ) (ts : List ℝ), (scaleRows c a ts).map pb.integrate = List.zipWith (fun x t => x * c t) (a.map pb.integrate) ts := by
    intro a
    induction a with
    | nil => intro ts; simp [scaleRows]
    | cons row a ih =>
      intro ts
      cases ts with
      | nil => simp [scaleRows]
      | cons t ts =>
        have := ih ts
        simp only [scaleRows, List.zipWith_cons_cons, List.map_cons, List.cons.injEq] at this ⊢
        exact ⟨integrate_scale pb _ _, this⟩
  cases a with
  | nil => cases h
  | cons row a =>
    cases ts with
    | nil => cases hlen
    | cons t ts =>
      unfold Passband.bandflux at h
      dsimp only at h
      split at h
      · cases h
      · rename_i hne
        split at h
        · cases h
        · rename_i hl
          injection h with h
          rw [← h, ← hmap]
          unfold Passband.bandflux scaleRows
          simp only [List.zipWith_cons_cons]
          rw [if_neg (by simpa using hne), if_neg (by simpa using hl)]

theorem scatter_scale (c : ℝ → ℝ) : ∀ (mask : List Bool) (out times v : List ℝ),
    scatter mask (List.zipWith (fun x t => x * c t) out times) (List.zipWith (fun x t => x * c t) v (gather mask times)) =
      List.zipWith (fun x t => x * c t) (scatter mask out v) times
  | [], out, times, v => by simp [scatter]
  | _ :: _, [], times, v => by simp [scatter]
  | _ :: _, _ :: _, [], v => by simp [scatter]
  | true :: mask, x :: out, t :: times, [] => by
    have := scatter_scale c mask out times []
    simp only [List.zipWith_cons_cons, gather_true, List.zipWith_nil_left, scatter, List.cons.injEq, true_and] at this ⊢
    exact this
  | true :: mask, x :: out, t :: times, y :: v => by
    have := scatter_scale c mask out times v
    simp only [List.zipWith_cons_cons, gather_true, scatter, List.cons.injEq, true_and] at this ⊢
    exact this
  | false :: mask, x :: out, t :: times, v => by
    have := scatter_scale c mask out times v
    simp only [List.zipWith_cons_cons, gather_false, scatter, List.cons.injEq, true_and] at this ⊢
    exact this

theorem loop_scale (c : ℝ → ℝ) {evalSed evalSed' : List ℝ → List ℝ → R → Except Err (Mat ℝ × R)}
    (h : ∀ ts ws r a r', evalSed ts ws r = .ok (a, r') → a.length = ts.length ∧ evalSed' ts ws r = .ok (scaleRows c a ts, r'))
    (g : PassbandGroup ℝ) (times : List ℝ) (filters : List Name) : ∀ (fs : List Name) (r r' : R) (out b : List ℝ),
    bandfluxLoop evalSed g times filters fs r out = .ok (b, r') →
    bandfluxLoop evalSed' g times filters fs r (List.zipWith (fun x t => x * c t) out times) =
      .ok (List.zipWith (fun x t => x * c t) b times, r')
  | [], r, r', out, b, hl => by
    simp only [bandfluxLoop, Except.ok.injEq, Prod.mk.injEq] at hl ⊢
    exact ⟨by rw [hl.1], hl.2⟩
  | f :: fs, r, r', out, b, hl => by
    unfold bandfluxLoop at hl ⊢
    cases hg : g.getItem f with
    | error e => rw [hg] at hl; cases hl
    | ok pb =>
      rw [hg] at hl
      dsimp only at hl ⊢
      cases hs : evalSed (gather (filters.map fun x => decide (x = f)) times) pb.waves r with
      | error e => rw [hs] at hl; cases hl
      | ok q =>
        obtain ⟨a, r1⟩ := q
        rw [hs] at hl
        obtain ⟨h1, h2⟩ := h _ _ _ _ _ hs
        rw [h2]
        dsimp only at hl ⊢
        cases hb : pb.bandflux a with
        | error e => rw [hb] at hl; cases hl
        | ok v =>
          rw [hb] at hl
          rw [bandflux_scale pb c _ _ _ h1 hb]
          dsimp only at hl ⊢
          rw [scatter_scale]
          exact loop_scale c h g times filters fs r1 r' _ _ hl

/-- Adding an observer-frame effect that multiplies by a factor of time multiplies every bandflux by that factor. -/
theorem bandfluxes_scaled (m : SEDModel V W R ℝ) (e : Effect V R ℝ) (he : e.restFrame = false) (p : Params ℝ) (c : ℝ → ℝ)
    (hc : ∀ ts ws r a, a.length = ts.length → e.apply p ts ws r a = .ok (scaleRows c a ts, r)) (skip : Bool) (noKw : W)
    (g : PassbandGroup ℝ) (times : List ℝ) (filters : List Name) (st : SState ℝ) (hp : st.get? m.nodeString = some p)
    (hrows : ∀ ts ws r a r', m.evaluateSingle noKw ts ws st r noKw = .ok (a, r') → a.length = ts.length)
    (r r' : R) (b : List ℝ) (h : m.evaluateBandfluxesSingle noKw g times filters st r = .ok (b, r')) :
    (m.addEffect e skip).evaluateBandfluxesSingle noKw g times filters st r =
      .ok (List.zipWith (fun x t => x * c t) b times, r') := by
  unfold SEDModel.evaluateBandfluxesSingle bandfluxesSingle at h ⊢
  have hz : (times.map fun _ => (0 : ℝ)) = List.zipWith (fun x t => x * c t) (times.map fun _ => 0) times := by
    clear h
    induction times with
    | nil => rfl
    | cons t ts ih => simp only [List.map_cons, List.zipWith_cons_cons, zero_mul]; rw [← ih]
  rw [hz]
  refine loop_scale c ?_ g times filters _ r r' _ _ h
  intro ts ws r0 a r1 h1
  have hl := hrows _ _ _ _ _ h1
  refine ⟨hl, ?_⟩
  have := evaluate_observer m e he skip noKw noKw ts ws st r0 p hp
  rw [h1] at this
  rw [this]
  exact hc _ _ _ _ hl

/-- C90: magnifying the spectra and then integrating over the passbands gives what magnifying the bandfluxes gives: adding the
effect to an SED model changes its bandfluxes exactly as the effect's bandflux form changes them. The same holds for a
constant dimming in the observer frame. -/
theorem C90_bandfluxes {binary : ℝ → V} {always t0S u0S tES : V} {q : ℝ} {kwargs : Dict Name V} {e : Effect V R ℝ}
    (he : microlensing binary always t0S u0S tES q kwargs = .ok e ∨ ∃ s, e = constantDimming s false) (m : SEDModel V W R ℝ)
    (skip : Bool) (noKw : W) (g : PassbandGroup ℝ) (times : List ℝ) (filters : List Name) (st : SState ℝ) (p : Params ℝ)
    (hp : st.get? m.nodeString = some p) (hon : SwitchedOn p ∨ SwitchedOff p) (t0 u0 tE f : ℝ) (hev : Event p t0 u0 tE)
    (hf : p.get? "flux_fraction".toList = some (.num f))
    (hrows : ∀ ts ws r a r', m.evaluateSingle noKw ts ws st r noKw = .ok (a, r') → a.length = ts.length)
    (r r' : R) (b : List ℝ) (hb : b.length = times.length)
    (h : m.evaluateBandfluxesSingle noKw g times filters st r = .ok (b, r')) :
    ∃ b', e.applyBand p times filters r' b = .ok (b', r') ∧
      (m.addEffect e skip).evaluateBandfluxesSingle noKw g times filters st r = .ok (b', r') := by
  have hone : ∀ (l ts : List ℝ), l.length = ts.length → List.zipWith (fun x (_ : ℝ) => x * 1) l ts = l := by
    intro l
    induction l with
    | nil => intro ts _; simp
    | cons x l ih =>
      intro ts hts
      cases ts with
      | nil => cases hts
      | cons t ts => simp only [List.zipWith_cons_cons, mul_one, List.cons.injEq, true_and]; simpa using ih ts (by simpa using hts)
  have honeM : ∀ (a : Mat ℝ) (ts : List ℝ), a.length = ts.length → scaleRows (fun _ => 1) a ts = a := by
    intro a
    induction a with
    | nil => intro ts _; simp [scaleRows]
    | cons x l ih =>
      intro ts hts
      cases ts with
      | nil => cases hts
      | cons t ts =>
        have := ih ts (by simpa using hts)
        simp only [scaleRows, List.zipWith_cons_cons, mul_one, List.map_id', List.cons.injEq, true_and] at this ⊢
        exact this
  rcases he with he | ⟨s, rfl⟩
  · obtain ⟨h1, h2, h3⟩ := lens_apply he
    rcases hon with hon | hoff
    · refine ⟨_, ?_, bandfluxes_scaled m e h1 p (pspl (Real.log u0) (Real.log tE) t0) ?_ skip noKw g times filters st hp hrows r r' b h⟩
      · rw [h3]
        unfold microlensingBand
        rw [if_pos (on_truthy hon), mags hev]
        dsimp only
        rw [if_pos (by simpa using hb), List.zipWith_map_right]
      · intro ts ws r a hl
        rw [h2]
        unfold microlensingApply
        rw [if_pos (on_truthy hon), mags hev]
        dsimp only
        rw [if_pos (by simpa using hl), List.zipWith_map_right]
        rfl
    · refine ⟨b, ?_, ?_⟩
      · rw [h3]
        unfold microlensingBand
        rw [if_neg (off_not hoff)]
      · have := bandfluxes_scaled m e h1 p (fun _ => 1) (fun ts ws r a hl => by
          rw [h2]
          unfold microlensingApply
          rw [if_neg (off_not hoff), honeM _ _ hl]) skip noKw g times filters st hp hrows r r' b h
        rw [hone _ _ hb] at this
        exact this
  · have hff : fluxFraction p = .ok f := by unfold fluxFraction; rw [hf]
    refine ⟨b.map fun x => x * f, ?_, ?_⟩
    · simp only [constantDimming, hff]
    · have := bandfluxes_scaled m (constantDimming s false) rfl p (fun _ => f) (fun ts ws r a hl => by
        simp only [constantDimming, hff]
        congr 2
        unfold scaleRows
        clear h hb
        induction a generalizing ts with
        | nil => simp
        | cons row a ih =>
          cases ts with
          | nil => cases hl
          | cons t ts =>
            simp only [List.map_cons, List.zipWith_cons_cons, List.cons.injEq, true_and]
            exact ih ts (by simpa using hl)) skip noKw g times filters st hp hrows r r' b h
      rw [this]
      congr 2
      clear h this
      induction b generalizing times with
      | nil => simp
      | cons x b ih =>
        cases times with
        | nil => cases hb
        | cons t ts =>
          simp only [List.map_cons, List.zipWith_cons_cons, List.cons.injEq, true_and]
          exact ih ts (by simpa using hb)

/-! ### The hypotheses are met -/

noncomputable def lensState (on : ℝ) : SState ℝ :=
  [("s".toList, [("redshift".toList, .num 0), ("t0".toList, .num 0), ("microlensing_t0".toList, .num 5), ("u_0".toList, .num 2),
    ("t_E".toList, .num 1), ("apply_microlensing".toList, .num on), ("flux_fraction".toList, .num 2)])]

noncomputable def flatSource : SEDModel Unit Unit Unit ℝ :=
  ⟨"s".toList, [], fun _ _ ts ws => .ok (ts.map fun _ => ws.map fun _ => 50), fun _ => none, fun _ => none, none, true, [], []⟩

theorem flat_value (on : ℝ) : flatSource.evaluateSingle () [5, 7] [4000] (lensState on) () () = .ok ([[50], [50]], ()) := by
  rw [evaluate_plain flatSource rfl () () _ _ _ () _ rfl none (.zero rfl)]
  simp [SEDModel.sedExtrapolated, flatSource, npMin, npMax, frameFactor, applyEffects]

/-- At the peak with impact parameter 2 the magnification is 6/sqrt(32). -/
example : ∃ e : Effect Unit Unit ℝ, microlensing (fun _ => ()) () () () () 1 [] = .ok e ∧
    (flatSource.addEffect e).evaluateSingle () [5, 7] [4000] (lensState 1) () () =
      .ok ([[50 * (6 / Real.sqrt 32)], [50 * (10 / Real.sqrt 96)]], ()) ∧
    (flatSource.addEffect e).evaluateSingle () [5, 7] [4000] (lensState 0) () () = .ok ([[50], [50]], ()) := by
  obtain ⟨e, he⟩ := (C90_constructor (R := Unit) (fun _ => ()) () () () () 1 []).2.2 ⟨by norm_num, by simp⟩
  refine ⟨e, he, ?_, ?_⟩
  · rw [(C90_evaluate he flatSource false () () [5, 7] [4000] (lensState 1) () () _ _ rfl (flat_value 1) rfl).2.1
      (Or.inl ⟨1, one_ne_zero, rfl⟩) 5 2 1 ⟨rfl, rfl, rfl⟩]
    simp only [(C90_magnification (show (0 : ℝ) < 2 by norm_num) one_pos 5).1, List.zipWith_cons_cons, List.map_cons, List.map_nil,
      List.zipWith_nil_left]
    norm_num
  · exact (C90_evaluate he flatSource false () () [5, 7] [4000] (lensState 0) () () _ _ rfl (flat_value 0) rfl).1 (Or.inl rfl)

noncomputable def boxBand : Passband ℝ := ⟨"s_r".toList, "r".toList, [], [(4000, 1 / 1000), (5000, 1 / 1000)], [4000, 5000], none⟩

noncomputable def boxGroup : PassbandGroup ℝ := ⟨[("r".toList, boxBand)], [], [], []⟩

theorem flat_rows (on : ℝ) (ts ws : List ℝ) (r : Unit) (a : Mat ℝ) (r' : Unit)
    (h : flatSource.evaluateSingle () ts ws (lensState on) r () = .ok (a, r')) : a.length = ts.length := by
  rw [evaluate_plain flatSource rfl () () _ _ _ () _ rfl none (.zero rfl)] at h
  simp only [SEDModel.sedExtrapolated, flatSource, frameFactor, applyEffects] at h
  cases h1 : npMin (ws.map (frameWave none)) with
  | none => rw [h1] at h; cases h
  | some lo =>
    rw [h1] at h
    cases h2 : npMax (ws.map (frameWave none)) with
    | none => rw [h2] at h; cases h
    | some hi =>
      rw [h2] at h
      simp at h
      rw [← h]
      simp

theorem flat_band (on : ℝ) : flatSource.evaluateBandfluxesSingle () boxGroup [5] ["r".toList] (lensState on) () = .ok ([50], ()) := by
  have hv : flatSource.evaluateSingle () [5] [4000, 5000] (lensState on) () () = .ok ([[50, 50]], ()) := by
    rw [evaluate_plain flatSource rfl () () _ _ _ () _ rfl none (.zero rfl)]
    simp [SEDModel.sedExtrapolated, flatSource, npMin, npMax, frameFactor, applyEffects]
  unfold SEDModel.evaluateBandfluxesSingle bandfluxesSingle
  rw [BandfluxProps.npUnique_singleton]
  unfold bandfluxLoop
  have hg : boxGroup.getItem "r".toList = .ok boxBand := rfl
  rw [hg]
  dsimp only
  have hga : gather (["r".toList].map fun x => decide (x = "r".toList)) [(5 : ℝ)] = [5] := by simp [gather]
  rw [hga, show boxBand.waves = [4000, 5000] from rfl, hv]
  dsimp only
  have hb : boxBand.bandflux [[50, 50]] = .ok [50] := by
    have hi : boxBand.integrate [50, 50] = 50 := by
      unfold Passband.integrate boxBand
      norm_num [trapezoid, trapCells]
    unfold Passband.bandflux
    dsimp only
    rw [if_neg (by simp), if_neg (by simp [boxBand]), List.map_cons, hi]
    rfl
  rw [hb]
  dsimp only
  simp [bandfluxLoop, scatter]

/-- The bandflux of the flat source is magnified like its spectrum. -/
example : ∃ e : Effect Unit Unit ℝ, microlensing (fun _ => ()) () () () () 1 [] = .ok e ∧
    (flatSource.addEffect e).evaluateBandfluxesSingle () boxGroup [5] ["r".toList] (lensState 1) () = .ok ([50 * (6 / Real.sqrt 32)], ()) := by
  obtain ⟨e, he⟩ := (C90_constructor (R := Unit) (fun _ => ()) () () () () 1 []).2.2 ⟨by norm_num, by simp⟩
  refine ⟨e, he, ?_⟩
  obtain ⟨b', h1, h2⟩ := C90_bandfluxes (Or.inl he) flatSource false () boxGroup [5] ["r".toList] (lensState 1) _ rfl
    (Or.inl (Or.inl ⟨1, one_ne_zero, rfl⟩)) 5 2 1 2 ⟨rfl, rfl, rfl⟩ rfl (flat_rows 1) () () [50] rfl (flat_band 1)
  rw [h2]
  obtain ⟨-, -, h3⟩ := lens_apply he
  rw [h3] at h1
  unfold microlensingBand at h1
  rw [if_pos (on_truthy (Or.inl ⟨1, one_ne_zero, rfl⟩)), mags (t0 := 5) (u0 := 2) (tE := 1) ⟨rfl, rfl, rfl⟩] at h1
  dsimp only at h1
  rw [if_pos (by simp)] at h1
  simp only [(C90_magnification (show (0 : ℝ) < 2 by norm_num) one_pos 5).1, List.map_cons, List.map_nil, List.zipWith_cons_cons,
    List.zipWith_nil_left, Except.ok.injEq, Prod.mk.injEq, and_true] at h1
  rw [← h1]
  norm_num

end LCL.LensProps
