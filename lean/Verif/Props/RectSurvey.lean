import Verif.Spec.RectSurvey
import Verif.Props.Footprint
import Verif.Props.RangeSearch
import Verif.Props.FullRun
import Verif.Props.PointingRun

/-!
# Property C150: a survey with a rectangular detector observes exactly what falls on the detector
-/

namespace LCL.RectProps
open LCL LCL.ObsSpec LCL.FootprintSpec LCL.RectSpec LCL.EndToEndSpec LCL.FullRun LCL.FullRunSpec LCL.EndToEnd LCL.NodeSpec LCL.GraphSpec LCL.SimSpec LCL.PhotSpec Real

/-- The cosine of the separation. -/
theorem sep_dot (ra dec ra0 dec0 : ℝ) : sep ra dec ra0 dec0 = arccos (dot (direction ra dec) (direction ra0 dec0)) := by
  unfold sep dot direction
  rw [cos_sub]
  congr 1
  ring

theorem deg_pos : 0 < π / 180 := by positivity

theorem deg_inv (x : ℝ) : x * (180 / π) * (π / 180) = x := FootprintProps.deg_rad x

/-- The search of a survey with a rectangular detector: within the radius, within the times and on the detector. -/
theorem C150_match {t : ObsTable} {w h : ℝ} (ht : RectSurvey t w h) (q : ℝ × ℝ) (r : ℝ) (lo hi : Option ℝ) (i : Nat) :
    Match t q r lo hi i ↔ Covers t w h q lo hi i ∧ ∃ ra dec, num t "ra".toList i = some ra ∧ num t "dec".toList i = some dec ∧ sep q.1 q.2 ra dec ≤ r * (π / 180) := by
  obtain ⟨s, fp, hw, hh, hs, hr, hf⟩ := ht
  obtain ⟨fp', e1, e2⟩ := (FootprintProps.C53_rectangle w h (some s)).1 s rfl hw hh hs
  rw [hr] at e1; cases e1
  constructor
  · rintro ⟨ra, dec, h1, h2, h3, h4, h5, h6⟩
    exact ⟨⟨ra, dec, h1, h2, (e2 _ _ _ _ _).1 (h6 _ hf), h4, h5⟩, ra, dec, h1, h2, h3⟩
  · rintro ⟨⟨ra, dec, h1, h2, h3, h4, h5⟩, ra', dec', g1, g2, g3⟩
    rw [h1] at g1; cases g1
    rw [h2] at g2; cases g2
    refine ⟨ra, dec, h1, h2, g3, h4, h5, fun f hf' => ?_⟩
    rw [hf] at hf'; cases hf'
    exact (e2 _ _ _ _ _).2 h3

/-- A point on the detector is at most half the diagonal from the pointing. -/
theorem on_near {w h ra dec ra0 dec0 rot r : ℝ} (hr : √(w ^ 2 + h ^ 2) / 2 ≤ r) (ho : OnDetector w h ra dec ra0 dec0 rot) : sep ra dec ra0 dec0 ≤ r * (π / 180) := by
  obtain ⟨h0, h1, h2⟩ := ho
  rw [sep_dot]
  have hu := FootprintProps.frame_unit ra dec ra0 dec0 rot
  generalize dot (direction ra dec) (direction ra0 dec0) = c at *
  generalize dot (direction ra dec) (detX ra0 dec0 rot) = X at *
  generalize dot (direction ra dec) (detY ra0 dec0 rot) = Y at *
  have hd := deg_pos
  have hlt : arccos c < π / 2 := arccos_lt_pi_div_two.2 h0
  have htan := le_tan (arccos_nonneg c) hlt
  rw [tan_arccos] at htan
  refine htan.trans ?_
  have h1' : |X / c * (180 / π)| ^ 2 < (w / 2) ^ 2 := pow_lt_pow_left₀ h1 (abs_nonneg _) two_ne_zero
  have h2' : |Y / c * (180 / π)| ^ 2 < (h / 2) ^ 2 := pow_lt_pow_left₀ h2 (abs_nonneg _) two_ne_zero
  rw [sq_abs] at h1' h2'
  have hsq : (√(1 - c ^ 2) / c * (180 / π)) ^ 2 ≤ (√(w ^ 2 + h ^ 2) / 2) ^ 2 := by
    have e1 : √(1 - c ^ 2) ^ 2 = X ^ 2 + Y ^ 2 := by
      rw [sq_sqrt (by nlinarith [sq_nonneg X, sq_nonneg Y])]
      linarith
    have e2 : (√(1 - c ^ 2) / c * (180 / π)) ^ 2 = (X / c * (180 / π)) ^ 2 + (Y / c * (180 / π)) ^ 2 := by
      rw [mul_pow, div_pow, e1]; ring
    have e3 : (√(w ^ 2 + h ^ 2) / 2) ^ 2 = (w / 2) ^ 2 + (h / 2) ^ 2 := by
      rw [div_pow, sq_sqrt (by positivity)]; ring
    rw [e2, e3]; linarith
  have hle : √(1 - c ^ 2) / c * (180 / π) ≤ r := (abs_le_of_sq_le_sq' hsq (by positivity)).2.trans hr
  calc √(1 - c ^ 2) / c = √(1 - c ^ 2) / c * (180 / π) * (π / 180) := (deg_inv _).symm
    _ ≤ r * (π / 180) := mul_le_mul_of_nonneg_right hle hd.le

/-- C150, the search: with a radius of at least half the detector's diagonal (and at most 180 degrees), `range_search` returns, for each point, in increasing order exactly the visits within the
time bounds whose detector covers it: the radius, which is only a first filter, never loses one. -/
theorem C150_search {t : ObsTable} (hb : Built t) {w h : ℝ} (ht : RectSurvey t w h) {ra dec : ObsTable.QArg} {r : ℝ} (hr : √(w ^ 2 + h ^ 2) / 2 ≤ r) (h180 : r ≤ 180) {tmin tmax : ObsTable.TArg}
    {out : ObsTable.SearchOut} (hs : t.rangeSearch ra dec (some r) tmin tmax = .ok out) :
    ∃ (qs : List (ℝ × ℝ)) (lists : List (List Nat)), ra.values = qs.map (fun q => some q.1) ∧ dec.values = qs.map (fun q => some q.2) ∧ lists.length = qs.length ∧
      (out = .many lists ∨ ra.isScalar = true ∧ dec.isScalar = true ∧ ∃ l, lists = [l] ∧ out = .one l) ∧
      ∀ (k : Nat) (q : ℝ × ℝ) (l : List Nat), qs[k]? = some q → lists[k]? = some l →
        l.Pairwise (· < ·) ∧ ∀ i, i ∈ l ↔ Covers t w h q (boundAt tmin k) (boundAt tmax k) i := by
  obtain ⟨r', qs, lists, h1, h2, h3, h4, h5, h6⟩ := RangeSearchProps.C37_exact hb hs
  have : r' = r := by
    rcases h1 with h1 | ⟨h1, _⟩
    · exact (Option.some.inj h1).symm
    · cases h1
  subst this
  have h0 : 0 ≤ r' := le_trans (by positivity) hr
  refine ⟨qs, lists, h2, h3, h4, h5, fun k q l hq hl => ?_⟩
  obtain ⟨g1, g2⟩ := h6 h0 h180 k q l hq hl
  refine ⟨g1, fun i => (g2 i).trans ?_⟩
  rw [C150_match ht]
  constructor
  · exact fun h => h.1
  · intro h
    obtain ⟨ra, dec, a1, a2, a3, -⟩ := id h
    exact ⟨h, ra, dec, a1, a2, on_near hr a3⟩

/-- C150, the middle of the detector: a point at most `ρ` degrees from the pointing falls on the detector, however it is turned, when the tangent of `ρ` is less than half its width and half its
height. -/
theorem C150_disc {w h ra dec ra0 dec0 ρ : ℝ} (rot : ℝ) (h90 : ρ < 90) (hw : tan (ρ * (π / 180)) * (180 / π) < w / 2) (hh : tan (ρ * (π / 180)) * (180 / π) < h / 2)
    (hs : sep ra dec ra0 dec0 ≤ ρ * (π / 180)) : OnDetector w h ra dec ra0 dec0 rot := by
  unfold OnDetector
  rw [sep_dot] at hs
  have hu := FootprintProps.frame_unit ra dec ra0 dec0 rot
  generalize dot (direction ra dec) (direction ra0 dec0) = c at *
  generalize dot (direction ra dec) (detX ra0 dec0 rot) = X at *
  generalize dot (direction ra dec) (detY ra0 dec0 rot) = Y at *
  have hpi := pi_pos
  have hlt : arccos c < π / 2 := by
    refine lt_of_le_of_lt hs ?_
    nlinarith
  have hc : 0 < c := arccos_lt_pi_div_two.1 hlt
  have hρ : ρ * (π / 180) < π / 2 := by nlinarith
  have htan : tan (arccos c) ≤ tan (ρ * (π / 180)) := by
    rcases hs.lt_or_eq with h | h
    · exact (tan_lt_tan_of_nonneg_of_lt_pi_div_two (arccos_nonneg c) hρ h).le
    · rw [h]
  rw [tan_arccos] at htan
  have key : ∀ Z : ℝ, Z ^ 2 ≤ 1 - c ^ 2 → |Z / c * (180 / π)| ≤ tan (ρ * (π / 180)) * (180 / π) := by
    intro Z hZ
    rw [abs_mul, abs_div, abs_of_pos hc, abs_of_pos (by positivity : 0 < 180 / π)]
    refine mul_le_mul_of_nonneg_right (le_trans ?_ htan) (by positivity)
    exact div_le_div_of_nonneg_right (abs_le_sqrt hZ) hc.le
  exact ⟨hc, (key X (by nlinarith [sq_nonneg Y])).trans_lt hw, (key Y (by nlinarith [sq_nonneg X])).trans_lt hh⟩

/-- C150, turning the camera: half a turn changes nothing; a quarter turn exchanges width and height. -/
theorem C150_turns (w h ra dec ra0 dec0 rot : ℝ) : (OnDetector w h ra dec ra0 dec0 (rot + 180) ↔ OnDetector w h ra dec ra0 dec0 rot) ∧
    (OnDetector w h ra dec ra0 dec0 (rot + 90) ↔ OnDetector h w ra dec ra0 dec0 rot) := by
  have e1 : (rot + 180) * (π / 180) = rot * (π / 180) + π := by ring
  have e2 : (rot + 90) * (π / 180) = rot * (π / 180) + π / 2 := by ring
  have dlin : ∀ (d : ℝ × ℝ × ℝ) a u b v, dot d (lin a u b v) = a * dot d u + b * dot d v := by
    intro d a u b v; unfold dot lin; ring
  have x1 : dot (direction ra dec) (detX ra0 dec0 (rot + 180)) = -dot (direction ra dec) (detX ra0 dec0 rot) := by
    unfold detX; rw [e1, cos_add_pi, sin_add_pi, dlin, dlin]; ring
  have y1 : dot (direction ra dec) (detY ra0 dec0 (rot + 180)) = -dot (direction ra dec) (detY ra0 dec0 rot) := by
    unfold detY; rw [e1, cos_add_pi, sin_add_pi, dlin, dlin]; ring
  have x2 : dot (direction ra dec) (detX ra0 dec0 (rot + 90)) = -dot (direction ra dec) (detY ra0 dec0 rot) := by
    unfold detX detY; rw [e2, cos_add_pi_div_two, sin_add_pi_div_two, dlin, dlin]; ring
  have y2 : dot (direction ra dec) (detY ra0 dec0 (rot + 90)) = dot (direction ra dec) (detX ra0 dec0 rot) := by
    unfold detX detY; rw [e2, cos_add_pi_div_two, sin_add_pi_div_two]
  unfold OnDetector
  rw [x1, y1, x2, y2]
  simp only [neg_div, neg_mul, abs_neg]
  exact ⟨trivial, ⟨fun ⟨a, b, c⟩ => ⟨a, c, b⟩, fun ⟨a, b, c⟩ => ⟨a, c, b⟩⟩⟩

/-- C150, a whole run: when every survey has a rectangular detector and a radius of at least half its diagonal, row `k` of the table counts and records exactly the visits, within the time
window, whose detector covers object `k`. -/
theorem C150_run {σ : Type} {isBand : Bool} {ev : Heap ℝ σ → PNode ℝ σ → SurveyArg → List ℝ → List Name → SState ℝ → σ → Except Err (List ℝ × σ)} {draw : σ → ℝ × σ} {H : Heap ℝ σ}
    (hG : GraphOK H) {root : NodeId} {objs : List NodeId} (hph : Physical H root) {n : Int}
    {args : List SurveyArg} {saveCols paramCols : List Name} {offset : Option (List (Option ℝ))} {w : σ} {out : Outcome σ} (P : SurveyArg → SState ℝ → Name → ℝ → ℝ → Prop)
    (hstd : ∀ c ∈ paramCols, colName c ∉ standardCols) (hne : args ≠ []) (hbuilt : ∀ a ∈ args, Built a.table) (width height : SurveyArg → ℝ)
    (hrect : ∀ a ∈ args, RectSurvey a.table (width a) (height a) ∧ ∃ rad, a.table.radius = some rad ∧ √(width a ^ 2 + height a ^ 2) / 2 ≤ rad ∧ rad ≤ 180)
    (hsave : saveCols.Nodup ∧ ∀ c ∈ saveCols, c ∉ baseCols)
    (h : simulateFullWith isBand ev draw H root objs n args saveCols paramCols offset w = .ok out)
    (hev : ∀ nd, out.graph[root]? = some nd → EndToEndProps.Sized (ev out.graph nd))
    (hobs : ∀ nd st (k : Nat) a, out.graph[root]? = some nd → (k : Int) < n → StateOf out.sampled k st → a ∈ args → Fluxes (ev out.graph nd a) st (P a st)) :
    ∃ nd, ∃ (N : Nat) (w0 : σ) (nobs : List Nat), out.graph[root]? = some nd ∧ n = (N : Int) ∧ nobs.length = N ∧ IsColumn out.table "nobs" N (fun k => nobs[k]?.map .int) ∧
      ∀ k, k < N → ∃ (st : SState ℝ) (ra dec : ℝ) (t0 : Option ℝ) (obs : List (Nat × Nat)), StateOf out.sampled k st ∧
        sampleValue out.sampled nd.str "ra".toList k = some (.scalar ra) ∧ sampleValue out.sampled nd.str "dec".toList k = some (.scalar dec) ∧
        sampleValue out.sampled nd.str "t0".toList k = some (cellOf t0) ∧
        nobs[k]? = some obs.length ∧ obs.Pairwise (fun x y => x.1 < y.1 ∨ x.1 = y.1 ∧ x.2 < y.2) ∧
        (∀ j q, (j, q) ∈ obs ↔ ∃ a, args[j]? = some a ∧ Covers a.table (width a) (height a) (ra, dec) (winLo offset t0) (winHi offset t0) q) ∧
        ∀ (i j q : Nat), obs[i]? = some (j, q) → ∃ a, args[j]? = some a ∧
          MeasuredBy a j q (P a st) (drawAt draw w0 ((nobs.take k).sum + i)) (lightcurve out.nested k) i := by
  obtain ⟨nd, N, w0, nobs, g1, g2, -, g4, g5, -, g7⟩ := FullRunProps.C119_fluxes hG hph P hstd hne hbuilt
    (fun a ha => by obtain ⟨-, rad, e1, e2, e3⟩ := hrect a ha; exact ⟨rad, e1, le_trans (by positivity) e2, e3⟩) hsave h hev hobs
  refine ⟨nd, N, w0, nobs, g1, g2, g4, g5, fun k hk => ?_⟩
  obtain ⟨st, ra, dec, t0, obs, a1, a2, a3, a4, a5, a6, a7, -, a9⟩ := g7 k hk
  refine ⟨st, ra, dec, t0, obs, a1, a2, a3, a4, a5, a6, fun j q => (a7 j q).trans ?_, a9⟩
  constructor
  · rintro ⟨a, rad, e1, e2, e3⟩
    exact ⟨a, e1, ((C150_match (hrect a (List.mem_of_getElem? e1)).1 _ _ _ _ _).1 e3).1⟩
  · rintro ⟨a, e1, e2⟩
    obtain ⟨hr, rad, r1, r2, -⟩ := hrect a (List.mem_of_getElem? e1)
    refine ⟨a, rad, e1, r1, (C150_match hr _ _ _ _ _).2 ⟨e2, ?_⟩⟩
    obtain ⟨ra', dec', b1, b2, b3, -⟩ := e2
    exact ⟨ra', dec', b1, b2, on_near r2 b3⟩

end LCL.RectProps
