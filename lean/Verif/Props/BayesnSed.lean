import Verif.Spec.BayesnSed
import Verif.Props.Bayesn
import Verif.Props.Sncosmo
import Verif.Props.Extinction
import Verif.Props.AskAny

/-!
# C146 — BayeSN spectra
-/

namespace LCL.BayesnSedProps
open LCL LCL.BayesnLemmas LCL.Bayesn LCL.EffectLib LCL.BayesnSed LCL.BayesnSedSpec LCL.PhysSpec

/-- nJy at the wavelength `w` for the flux density `x`. -/
noncomputable def njy (w x : ℝ) : ℝ := x * 10 ^ 7 * (w / 10 ^ 10) ^ 2 / 299792458 * 10 ^ 35

theorem toFnu_map (times waves : List ℝ) (f : ℝ → ℝ → ℝ) :
    LCL.Sn.toFnu times.length waves.length (times.map fun t => waves.map fun w => f t w) waves = .ok (times.map fun t => waves.map fun w => njy w (f t w)) := by
  obtain ⟨r, h1, h2, h3, h4⟩ := SnProps.toFnu_ok times.length (times.map fun t => waves.map fun w => f t w) waves
  rw [h1]
  congr 1
  refine List.ext_getElem (by simp [h2]) fun i i1 i2 => ?_
  have hl := h3 r[i] (List.getElem_mem i1)
  refine List.ext_getElem (by simp [hl]) fun j j1 j2 => ?_
  have hj : j < waves.length := by omega
  have hi : i < times.length := by omega
  have := h4 i j waves[j] (by omega) (List.getElem?_eq_getElem hj)
  have e1 : (r.getD i []).getD j 0 = r[i][j] := by simp [List.getD_eq_getElem?_getD, i1, j1]
  have e2 : (((times.map fun t => waves.map fun w => f t w).getD i []).getD j 0) = f times[i] waves[j] := by simp [List.getD_eq_getElem?_getD, hi, hj]
  rw [e1, e2] at this
  simp only [List.getElem_map]
  unfold njy
  rw [← this]
  ring

theorem njy_same (w x : ℝ) : SameFlux (njy w x) x w := by unfold SameFlux njy; ring

variable {V W R : Type}

/-- The intrinsic flux density, dimmed by the dust and normalised. -/
noncomputable def flam (F : Files) (law : Law) (wl wt : Nat → Nat → ℝ) (s : Sn) (t w : ℝ) : ℝ :=
  template F.phase F.wave F.flux (t - s.t0) w * (10 : ℝ) ^ (-0.4 * warp F s.theta wl wt w (t - s.t0)) * law.left (s.av / s.rv) w * s.amplitude

theorem compute_eq {F : Files} {law : Law} {node : Name} {st : SState ℝ} {p : Params ℝ} {s : Sn} (hp : st.get? node = some p) (hs : s.In p) (hrv : s.rv ≠ 0) {wl wt : Nat → Nat → ℝ}
    (hl : computeInvkd F.lKnots = .ok wl) (ht : computeInvkd F.tauKnots = .ok wt) (times waves : List ℝ) :
    computeSed F law node st times waves = if ∀ w ∈ waves, law.lo ≤ w ∧ w ≤ law.hi then .ok (times.map fun t => waves.map fun w => njy w (flam F law wl wt s t w))
      else .error .valueError := by
  obtain ⟨h1, h2, h3, h4, h5⟩ := hs
  have n1 : num p t0Key = .ok s.t0 := by unfold num t0Key; rw [h1]
  have n2 : num p thetaKey = .ok s.theta := by unfold num thetaKey; rw [h2]
  have n3 : num p avKey = .ok s.av := by unfold num avKey; rw [h3]
  have n4 : num p rvKey = .ok s.rv := by unfold num rvKey; rw [h4]
  have n5 : num p amplitudeKey = .ok s.amplitude := by unfold num amplitudeKey; rw [h5]
  have hlp : localParams st node = .ok p := by unfold localParams; rw [hp]
  unfold computeSed
  simp only [bind, Except.bind, hlp, n1, n2, hl, ht, n3, n4, n5]
  unfold reddened extinctionApply
  rw [if_neg hrv]
  have hk : Dict.get? ([(ebvKey, PVal.num (s.av / s.rv))] : Params ℝ) ebvKey = some (.num (s.av / s.rv)) := by simp [Dict.get?]
  rw [hk]
  dsimp only
  unfold Law.extinguish
  by_cases hw : ∀ w ∈ waves, law.lo ≤ w ∧ w ≤ law.hi
  · rw [if_pos hw, if_pos hw]
    dsimp only
    rw [if_pos (by intro row hr; rw [List.mem_map] at hr; obtain ⟨r, -, rfl⟩ := hr; simp)]
    dsimp only
    have e : ((((times.map fun t => t - s.t0).map fun r => waves.map fun q => template F.phase F.wave F.flux r q * (10 : ℝ) ^ (-0.4 * warp F s.theta wl wt q r)).map
        fun row => List.zipWith (· * ·) row (waves.map (law.left (s.av / s.rv)))).map fun row => row.map fun x => x * s.amplitude) =
        times.map fun t => waves.map fun w => flam F law wl wt s t w := by
      simp only [List.map_map]
      refine List.map_congr_left fun t _ => ?_
      simp only [Function.comp_apply, List.zipWith_map, List.map_zipWith, List.zipWith_self, List.map_map]
      rfl
    rw [e]
    exact toFnu_map times waves _
  · rw [if_neg hw, if_neg hw]

/-- C146. The spectrum of a BayeSN supernova: for every time and wavelength, the template at the phase `t - t0`, warped by the natural-spline surface of `W0 + theta · W1`
(C74: `x` is its value there), dimmed by the dust, times the amplitude, converted to nJy; a wavelength the extinction law is not defined for raises ValueError. -/
theorem C146_value {F : Files} (law : Law) {node : Name} {st : SState ℝ} {p : Params ℝ} {s : Sn} (hp : st.get? node = some p) (hs : s.In p) (hrv : s.rv ≠ 0)
    (hl : Knots F.lKnots) (ht : Knots F.tauKnots) (times waves : List ℝ) (kw : W) :
    ((∀ w ∈ waves, law.lo ≤ w ∧ w ≤ law.hi) → Gives ((model F law node : SEDModel V W R ℝ).computeSed kw st times waves) times waves fun t w out =>
      ∃ x, surface F.lKnots F.tauKnots (List.zipWith (fun a b => List.zipWith (fun x y => x + s.theta * y) a b) F.w0 F.w1) w (t - s.t0) = .ok x ∧
        SameFlux out (template F.phase F.wave F.flux (t - s.t0) w * (10 : ℝ) ^ (-0.4 * x) * (10 : ℝ) ^ (-0.4 * law.axav w * (law.rv * (s.av / s.rv))) * s.amplitude) w) ∧
    ((∃ w ∈ waves, ¬ (law.lo ≤ w ∧ w ≤ law.hi)) → (model F law node : SEDModel V W R ℝ).computeSed kw st times waves = .error .valueError) := by
  obtain ⟨wl, hwl, -⟩ := invkd_ok hl.2 hl.1
  obtain ⟨wt, hwt, -⟩ := invkd_ok ht.2 ht.1
  have key := compute_eq (law := law) hp hs hrv hwl hwt times waves
  constructor
  · intro hw
    rw [if_pos hw] at key
    refine ⟨_, key, by simp, by intro row hr; rw [List.mem_map] at hr; obtain ⟨t, -, rfl⟩ := hr; simp, fun i j t w hi hj => ?_⟩
    refine ⟨warp F s.theta wl wt w (t - s.t0), ?_, ?_⟩
    · unfold surface
      rw [hwl, hwt]
      rfl
    · have e : ((times.map fun t => waves.map fun w => njy w (flam F law wl wt s t w)).getD i []).getD j 0 = njy w (flam F law wl wt s t w) := by
        rw [List.getD_eq_getElem?_getD, List.getD_eq_getElem?_getD, List.getElem?_map, hi]
        simp [hj]
      rw [e]
      exact njy_same _ _
  · rintro ⟨w, hw, hn⟩
    rw [if_neg (fun h => hn (h w hw))] at key
    exact key

/-- C146. Every entry of the spectrum depends on its own time only: the model treats times one by one, so it may be asked directly and simulated in parts (C31, C144). -/
theorem C146_rows {F : Files} (law : Law) {node : Name} {st : SState ℝ} {p : Params ℝ} {s : Sn} (hp : st.get? node = some p) (hs : s.In p) (hrv : s.rv ≠ 0)
    (hl : Knots F.lKnots) (ht : Knots F.tauKnots) : RowSed (model F law node : SEDModel V W R ℝ) st := by
  obtain ⟨wl, hwl, -⟩ := invkd_ok hl.2 hl.1
  obtain ⟨wt, hwt, -⟩ := invkd_ok ht.2 ht.1
  intro kw ws
  by_cases hw : ∀ w ∈ ws, law.lo ≤ w ∧ w ≤ law.hi
  · exact Or.inl ⟨fun t => ws.map fun w => njy w (flam F law wl wt s t w), fun _ => by simp,
      fun ts => (compute_eq hp hs hrv hwl hwt ts ws).trans (if_pos hw)⟩
  · exact Or.inr ⟨.valueError, fun ts => (compute_eq hp hs hrv hwl hwt ts ws).trans (if_neg hw)⟩

/-- C146: so the model's bandfluxes are answered one by one in every such state. -/
theorem C146_oneByOne {F : Files} (law : Law) {node : Name} {st : SState ℝ} {p : Params ℝ} {s : Sn} (hp : st.get? node = some p) (hs : s.In p) (hrv : s.rv ≠ 0)
    (hl : Knots F.lKnots) (ht : Knots F.tauKnots) (noKw : W) (g : PassbandGroup ℝ) :
    AskAnySpec.ModelOneByOne noKw g st (.sed (model F law node) : PhysModel V W R ℝ) :=
  (AskAnyProps.C144_parts noKw g st).1 _ (C146_rows law hp hs hrv hl ht) (by intro ex h; cases h) (by intro e he; cases he)

/-- C146. The spectrum is the amplitude times that of the same supernova with amplitude 1. -/
theorem C146_amplitude {F : Files} (law : Law) {node : Name} {st st1 : SState ℝ} {p p1 : Params ℝ} {s : Sn} (hp : st.get? node = some p) (hs : s.In p)
    (hp1 : st1.get? node = some p1) (hs1 : ({ s with amplitude := 1 } : Sn).In p1) (hrv : s.rv ≠ 0) (hl : Knots F.lKnots) (ht : Knots F.tauKnots) (times waves : List ℝ)
    {a : Mat ℝ} (h1 : computeSed F law node st1 times waves = .ok a) :
    computeSed F law node st times waves = .ok (a.map fun row => row.map fun x => x * s.amplitude) := by
  obtain ⟨wl, hwl, -⟩ := invkd_ok hl.2 hl.1
  obtain ⟨wt, hwt, -⟩ := invkd_ok ht.2 ht.1
  rw [compute_eq hp1 hs1 hrv hwl hwt] at h1
  rw [compute_eq hp hs hrv hwl hwt]
  split at h1
  · rename_i hw
    rw [if_pos hw]
    cases h1
    congr 1
    simp only [List.map_map]
    refine List.map_congr_left fun t _ => ?_
    simp only [Function.comp_apply, List.map_map]
    refine List.map_congr_left fun w _ => ?_
    simp only [Function.comp_apply, njy, flam]
    ring
  · cases h1

/-- C146. Dust: against the same supernova without it, every entry at wavelength `w` is dimmed by the factor `10 ^ (-0.4 · A)` with `A = A(w)/A(V) · R_V · Av / Rv`, where `R_V` is
the ratio of the extinction law. If that ratio is the given `Rv`, this is `A = A(w)/A(V) · Av`, the dust described by `Av` and `Rv`. -/
theorem C146_dust_partial {F : Files} (law : Law) {node : Name} {st st0 : SState ℝ} {p p0 : Params ℝ} {s : Sn} (hp : st.get? node = some p) (hs : s.In p)
    (hp0 : st0.get? node = some p0) (hs0 : ({ s with av := 0 } : Sn).In p0) (hrv : s.rv ≠ 0) (hlaw : law.rv = s.rv) (hl : Knots F.lKnots) (ht : Knots F.tauKnots) (times waves : List ℝ)
    {a : Mat ℝ} (h0 : computeSed F law node st0 times waves = .ok a) :
    computeSed F law node st times waves = .ok (a.map fun row => List.zipWith (fun x w => x * (10 : ℝ) ^ (-0.4 * (law.axav w * s.av))) row waves) := by
  obtain ⟨wl, hwl, -⟩ := invkd_ok hl.2 hl.1
  obtain ⟨wt, hwt, -⟩ := invkd_ok ht.2 ht.1
  rw [compute_eq hp0 hs0 hrv hwl hwt] at h0
  rw [compute_eq hp hs hrv hwl hwt]
  split at h0
  · rename_i hw
    rw [if_pos hw]
    cases h0
    congr 1
    simp only [List.map_map]
    refine List.map_congr_left fun t _ => ?_
    simp only [Function.comp_apply, List.zipWith_map_left, List.zipWith_self]
    refine List.map_congr_left fun w _ => ?_
    have e : law.left (s.av / s.rv) w = (10 : ℝ) ^ (-0.4 * (law.axav w * s.av)) := by
      unfold Law.left
      rw [hlaw]
      congr 1
      field_simp
    have e0 : law.left (0 / s.rv) w = 1 := by unfold Law.left; simp
    simp only [njy, flam, e, e0]
    ring
  · cases h0

/-- C146 fails for other values of `Rv`: the law's own ratio is used, so where the law gives the extinction of the V band (A(w)/A(V) = 1), a supernova with one magnitude of extinction, `Av = 1`, is
dimmed by `R_V / Rv` magnitudes (1.55 for F99 and Rv = 2), not by one. -/
theorem C146_av_counterexample {F : Files} (law : Law) {node : Name} {st st0 : SState ℝ} {p p0 : Params ℝ} {s : Sn} (hp : st.get? node = some p) (hs : s.In p)
    (hp0 : st0.get? node = some p0) (hs0 : ({ s with av := 0 } : Sn).In p0) (hav : s.av = 1) (hrv : s.rv = 2) (hlaw : law.rv = 3.1) (hl : Knots F.lKnots) (ht : Knots F.tauKnots)
    (t w : ℝ) (hw : law.axav w = 1) {x : ℝ} (h0 : computeSed F law node st0 [t] [w] = .ok [[x]]) :
    computeSed F law node st [t] [w] = .ok [[x * (10 : ℝ) ^ (-0.4 * (1.55 : ℝ))]] := by
  obtain ⟨wl, hwl, -⟩ := invkd_ok hl.2 hl.1
  obtain ⟨wt, hwt, -⟩ := invkd_ok ht.2 ht.1
  have hrv0 : s.rv ≠ 0 := by rw [hrv]; norm_num
  rw [compute_eq hp0 hs0 hrv0 hwl hwt] at h0
  rw [compute_eq hp hs hrv0 hwl hwt]
  split at h0
  · rename_i hw'
    rw [if_pos hw']
    simp only [List.map_cons, List.map_nil, Except.ok.injEq, List.cons.injEq, and_true] at h0 ⊢
    rw [← h0]
    have e : law.left (s.av / s.rv) w = (10 : ℝ) ^ (-0.4 * (1.55 : ℝ)) := by
      unfold Law.left
      rw [hlaw, hav, hrv, hw]
      congr 1
      norm_num
    have e0 : law.left (0 / s.rv) w = 1 := by unfold Law.left; simp
    simp only [njy, flam, e, e0]
    ring
  · cases h0

/-- C146: nor does `Rv` change the wavelength dependence of the dust: two supernovae that differ only in `Av` and `Rv`, with the same quotient, have the same spectra. -/
theorem C146_rv_counterexample {F : Files} (law : Law) {node : Name} {st st1 : SState ℝ} {p p1 : Params ℝ} {s : Sn} (av rv : ℝ) (hp : st.get? node = some p) (hs : s.In p)
    (hp1 : st1.get? node = some p1) (hs1 : ({ s with av := av, rv := rv } : Sn).In p1) (hrv : s.rv ≠ 0) (hrv1 : rv ≠ 0) (hq : s.av / s.rv = av / rv) (hl : Knots F.lKnots)
    (ht : Knots F.tauKnots) (times waves : List ℝ) : computeSed F law node st times waves = computeSed F law node st1 times waves := by
  obtain ⟨wl, hwl, -⟩ := invkd_ok hl.2 hl.1
  obtain ⟨wt, hwt, -⟩ := invkd_ok ht.2 ht.1
  rw [compute_eq hp hs hrv hwl hwt, compute_eq hp1 hs1 hrv1 hwl hwt]
  simp only [flam, hq]

/-- Two knots on each axis, a flat template. -/
def exFiles : Files := ⟨[[0, 1], [2, 3]], [[1, 0], [0, 1]], [3000, 9000], [-20, 50], [-20, 50], [1000, 20000], [[1, 1], [1, 1]]⟩

/-- The parameters of a supernova with `av` and `rv`. -/
def exParams (av rv : ℝ) : Params ℝ :=
  [("t0".toList, .num 60000), ("theta".toList, .num 0.5), ("Av".toList, .num av), ("Rv".toList, .num rv), ("Amplitude".toList, .num 3)]

theorem ex_in (av rv : ℝ) : (⟨60000, 0.5, av, rv, 3⟩ : Sn).In (exParams av rv) :=
  ⟨rfl, rfl, rfl, rfl, rfl⟩

theorem ex_knots : Knots exFiles.lKnots ∧ Knots exFiles.tauKnots := by
  unfold Knots exFiles
  norm_num

/-- With the ratio 3.1, Rv = 2 and Av = 1 the V band is dimmed by 1.55 magnitudes. -/
example : ∃ x : ℝ, computeSed exFiles ⟨1000, 33333, fun _ => 1, 3.1⟩ "sn".toList [("sn".toList, exParams 0 2)] [60010] [5500] = .ok [[x]] ∧
    computeSed exFiles ⟨1000, 33333, fun _ => 1, 3.1⟩ "sn".toList [("sn".toList, exParams 1 2)] [60010] [5500] = .ok [[x * (10 : ℝ) ^ (-0.4 * (1.55 : ℝ))]] := by
  obtain ⟨wl, hwl, -⟩ := invkd_ok ex_knots.1.2 ex_knots.1.1
  obtain ⟨wt, hwt, -⟩ := invkd_ok ex_knots.2.2 ex_knots.2.1
  have h := compute_eq (law := ⟨1000, 33333, fun _ => 1, 3.1⟩) (node := "sn".toList) (st := [("sn".toList, exParams 0 2)]) rfl (ex_in 0 2) (by norm_num) hwl hwt [60010] [5500]
  rw [if_pos (by intro w hw; rw [List.mem_singleton] at hw; subst hw; norm_num)] at h
  exact ⟨_, h, C146_av_counterexample _ (st0 := [("sn".toList, exParams 0 2)]) rfl (ex_in 1 2) rfl (ex_in 0 2) rfl rfl rfl ex_knots.1 ex_knots.2 _ _ rfl h⟩

/-- C146. A missing number raises: without `theta`, `Av`, `Rv` or the amplitude there is no spectrum. -/
theorem C146_missing {F : Files} (law : Law) {node : Name} {st : SState ℝ} {p : Params ℝ} (hp : st.get? node = some p) (times waves : List ℝ)
    (h : ∃ key ∈ ["t0".toList, "theta".toList, "Av".toList, "Rv".toList, "Amplitude".toList], ∀ x, p.get? key ≠ some (.num x)) :
    ∃ e, computeSed F law node st times waves = .error e := by
  obtain ⟨key, hk, hx⟩ := h
  cases hc : computeSed F law node st times waves with
  | error e => exact ⟨e, rfl⟩
  | ok a =>
    exfalso
    have hnum : ∀ k x, num p k = .ok x → p.get? k = some (.num x) := by
      intro k x h
      unfold num at h
      split at h
      · cases h
      · rename_i y hy; cases h; exact hy
      · cases h
    have hlp : localParams st node = .ok p := by unfold localParams; rw [hp]
    unfold computeSed at hc
    simp only [bind, Except.bind, hlp] at hc
    split at hc
    · cases hc
    rename_i v1 h1
    split at hc
    · cases hc
    rename_i v2 h2
    split at hc
    · cases hc
    split at hc
    · cases hc
    split at hc
    · cases hc
    rename_i v3 h3
    split at hc
    · cases hc
    rename_i v4 h4
    split at hc
    · cases hc
    split at hc
    · cases hc
    rename_i v5 h5
    simp only [List.mem_cons, List.not_mem_nil, or_false] at hk
    rcases hk with rfl | rfl | rfl | rfl | rfl
    · exact hx _ (hnum _ _ h1)
    · exact hx _ (hnum _ _ h2)
    · exact hx _ (hnum _ _ h3)
    · exact hx _ (hnum _ _ h4)
    · exact hx _ (hnum _ _ h5)

end LCL.BayesnSedProps
