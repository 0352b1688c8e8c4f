import Verif.Props.Bicubic

/-!
# Property C48, continued: bilinear functions are reproduced, and the result is linear in the grid
-/

namespace LCL.BicubicProps
open LCL
variable {K : Type} [Field K] [LinearOrder K] [IsStrictOrderedRing K] [FloorRing K]

/-- The four weights of a query in a cell, weighted by the offsets, give the place of the query. -/
theorem C48_weights_moment (d : K) (h0 : -1 ≤ d) (h1 : d ≤ 0) : weight d (-1) * (-1) + weight d 1 + weight d 2 * 2 = -d := by
  have e1 : |d + ((-1 : Int) : K)| = 1 - d := by rw [abs_of_nonpos (by push_cast; linarith)]; push_cast; ring
  have e3 : |d + ((1 : Int) : K)| = d + 1 := by rw [abs_of_nonneg (by push_cast; linarith)]; push_cast; ring
  have e4 : |d + ((2 : Int) : K)| = d + 2 := by rw [abs_of_nonneg (by push_cast; linarith)]; push_cast; ring
  unfold weight kernel
  rw [e1, e3, e4]
  rw [if_neg (not_lt.2 (by linarith : (1 - d : K) ≤ 2)), if_neg (not_lt.2 (by linarith : (1 : K) ≤ 1 - d)),
    if_neg (not_lt.2 (by linarith : (d + 1 : K) ≤ 2)),
    if_neg (not_lt.2 (by linarith : (d + 2 : K) ≤ 2)), if_neg (not_lt.2 (by linarith : (1 : K) ≤ d + 2))]
  split
  · ring
  · have : d = 0 := by linarith
    subst this; ring

/-- The interpolated coordinate inside a regular axis. -/
theorem coord {v : List K} {h : K} (hh : ∀ d, IsStep v d → d = h) {i : Nat} {a b q : K} (ha : v[i]? = some a) (hb : v[i + 1]? = some b) (hab : a < b) (h1 : a ≤ q)
    (h2 : q ≤ b) : -1 ≤ (a - q) / (b - a) ∧ (a - q) / (b - a) ≤ 0 ∧ b - a = h ∧ -((a - q) / (b - a)) * h = q - a := by
  have hp : 0 < b - a := by linarith
  have e : b - a = h := hh _ ⟨i, a, b, ha, hb, rfl⟩
  refine ⟨by rw [le_div_iff₀ hp]; linarith, by rw [div_le_iff₀ hp]; linarith, e, ?_⟩
  rw [← e, neg_mul, div_mul_cancel₀ _ hp.ne']
  ring

/-- Inside the bounds of both axes. -/
theorem inside_of {v : List K} {ax : BAxis K} (h : mkAxis v = .ok ax) {q a a' : K} (m : a ∈ v) (m' : a' ∈ v) (l : a ≤ q) (l' : q ≤ a') : ax.outside q = false := by
  obtain ⟨hv, hl, hp, _⟩ := mkAxis_ok h
  unfold BAxis.outside
  rw [Bool.or_eq_false_iff, decide_eq_false_iff_not, decide_eq_false_iff_not, not_lt, not_lt, hv]
  obtain ⟨i, hi⟩ := List.mem_iff_getElem?.1 m
  obtain ⟨j, hj⟩ := List.mem_iff_getElem?.1 m'
  have h0 : v.headD 0 = v[0] := by cases v with
    | nil => simp at hl
    | cons x v => rfl
  have h9 : v.getLastD 0 = v[v.length - 1] := by
    have hne : v ≠ [] := by intro h; subst h; simp at hl
    rw [List.getLastD_eq_getLast?, List.getLast?_eq_getLast_of_ne_nil hne]
    simp [List.getLast_eq_getElem]
  rw [h0, h9]
  have hj' := (List.getElem?_eq_some_iff.1 hj).1
  exact ⟨le_trans (mono_le hp (Nat.zero_le i) (List.getElem?_eq_getElem _) hi) l, le_trans l' (mono_le hp (by omega) hj (List.getElem?_eq_getElem _))⟩

/-- C48. On regular axes every grid that samples a function `α + β x + γ y + δ x y` is interpolated exactly: anywhere inside the bounds the result is the
function itself. -/
theorem C48_bilinear {x y : List K} {z : List (List K)} {b : Bicubic K} (h : mkBicubic x y z = .ok b) {hx hy : K}
    (rx : ∀ d, IsStep x d → d = hx) (ry : ∀ d, IsStep y d → d = hy) {α β γ δ : K}
    (hf : ∀ (i j : Nat) (r : List K) (a c v : K), x[i]? = some a → y[j]? = some c → z[i]? = some r → r[j]? = some v → v = α + β * a + γ * c + δ * a * c)
    {qx qy : K} (x1 : ∃ a ∈ x, a ≤ qx) (x2 : ∃ a ∈ x, qx ≤ a) (y1 : ∃ a ∈ y, a ≤ qy) (y2 : ∃ a ∈ y, qy ≤ a) :
    b.at qx qy = some (α + β * qx + γ * qy + δ * qx * qy) := by
  obtain ⟨mx, my, hz, hl, hr⟩ := mkBicubic_ok h
  obtain ⟨a1, m1, l1⟩ := x1; obtain ⟨a2, m2, l2⟩ := x2; obtain ⟨a3, m3, l3⟩ := y1; obtain ⟨a4, m4, l4⟩ := y2
  have ox := inside_of mx m1 m2 l1 l2
  have oy := inside_of my m3 m4 l3 l4
  obtain ⟨i, u, v, fx, hu, hv, huv, q1, q2, _⟩ := find_cell mx (.inl ⟨hx, rx⟩) ox
  obtain ⟨j, s, t, fy, hs, ht, hst, p1, p2, _⟩ := find_cell my (.inl ⟨hy, ry⟩) oy
  obtain ⟨vx, _, _, _⟩ := mkAxis_ok mx
  obtain ⟨vy, _, _, _⟩ := mkAxis_ok my
  obtain ⟨gx, dx⟩ := frac_cell (ax := b.x) vx fx hu hv
  obtain ⟨gy, dy⟩ := frac_cell (ax := b.y) vy fy hs ht
  have hi := (List.getElem?_eq_some_iff.1 hv).1
  have hj := (List.getElem?_eq_some_iff.1 ht).1
  obtain ⟨cx1, cx2, cx3, cx4⟩ := coord rx hu hv huv q1 q2
  obtain ⟨cy1, cy2, cy3, cy4⟩ := coord ry hs ht hst p1 p2
  have eu := regular_at rx hu
  have es := regular_at ry hs
  have zc : ∀ k l : Int, 0 ≤ (i : Int) + k ∧ (i : Int) + k < x.length → 0 ≤ (j : Int) + l ∧ (j : Int) + l < y.length →
      zAt z (i + k) (j + l) = some (α + β * (u + k * hx) + γ * (s + l * hy) + δ * (u + k * hx) * (s + l * hy)) := by
    intro k l hk hl'
    obtain ⟨r, e, e1, e2, e3⟩ := zAt_some hl hr hk hl'
    rw [e3]
    have ex : x[((i : Int) + k).toNat]? = some (u + k * hx) := by
      have : ((i : Int) + k).toNat < x.length := by omega
      rw [List.getElem?_eq_getElem this]
      have g := regular_at rx (List.getElem?_eq_getElem this)
      rw [g, eu]
      congr 1
      have c : (((i : Int) + k).toNat : K) = (i : K) + k := by
        have : ((((i : Int) + k).toNat : Int) : K) = (((i : Int) + k : Int) : K) := by rw [Int.toNat_of_nonneg hk.1]
        push_cast at this; exact this
      rw [c]; ring
    have ey : y[((j : Int) + l).toNat]? = some (s + l * hy) := by
      have : ((j : Int) + l).toNat < y.length := by omega
      rw [List.getElem?_eq_getElem this]
      have g := regular_at ry (List.getElem?_eq_getElem this)
      rw [g, es]
      congr 1
      have c : (((j : Int) + l).toNat : K) = (j : K) + l := by
        have : ((((j : Int) + l).toNat : Int) : K) = (((j : Int) + l : Int) : K) := by rw [Int.toNat_of_nonneg hl'.1]
        push_cast at this; exact this
      rw [c]; ring
    rw [hf _ _ _ _ _ _ ex ey e1 e2]
  unfold Bicubic.at
  rw [ox, oy]
  simp only [Bool.or_self, Bool.false_eq_true, if_false]
  by_cases hedge : (b.x.onEdge qx || b.y.onEdge qy) = true
  · rw [if_pos hedge, hz, fx, fy, gx, gy]
    dsimp only
    unfold linearAt
    have z00 := zc 0 0 (by omega) (by omega)
    have z01 := zc 0 1 (by omega) (by omega)
    have z10 := zc 1 0 (by omega) (by omega)
    have z11 := zc 1 1 (by omega) (by omega)
    simp only [add_zero] at z00 z01 z10
    rw [z00, z01, z10, z11]
    dsimp only
    congr 1
    push_cast
    have kx : (qx - u) / (v - u) * hx = qx - u := by rw [← cx3, div_mul_cancel₀ _ (by linarith)]
    have ky : (qy - s) / (t - s) * hy = qy - s := by rw [← cy3, div_mul_cancel₀ _ (by linarith)]
    generalize (qx - u) / (v - u) = ax at kx
    generalize (qy - s) / (t - s) = ay at ky
    have hqx : qx = u + ax * hx := by linarith
    have hqy : qy = s + ay * hy := by linarith
    rw [hqx, hqy]; ring
  · rw [if_neg hedge, hz, fx, fy, dx, dy]
    simp only [BAxis.onEdge, Bool.or_eq_true, decide_eq_true_eq, not_or, not_lt, gt_iff_lt] at hedge
    obtain ⟨⟨ex1, ex2⟩, ey1, ey2⟩ := hedge
    rw [vx, fx] at ex2
    rw [vy, fy] at ey2
    rw [fx] at ex1
    rw [fy] at ey1
    dsimp only
    unfold cubicAt comb4
    dsimp only
    have sx := C48_weights_sum _ cx1 cx2
    have sy := C48_weights_sum _ cy1 cy2
    have tx := C48_weights_moment _ cx1 cx2
    have ty := C48_weights_moment _ cy1 cy2
    rw [zc (-1) (-1) (by omega) (by omega), zc (-1) 0 (by omega) (by omega), zc (-1) 1 (by omega) (by omega), zc (-1) 2 (by omega) (by omega),
      zc 0 (-1) (by omega) (by omega), zc 0 0 (by omega) (by omega), zc 0 1 (by omega) (by omega), zc 0 2 (by omega) (by omega),
      zc 1 (-1) (by omega) (by omega), zc 1 0 (by omega) (by omega), zc 1 1 (by omega) (by omega), zc 1 2 (by omega) (by omega),
      zc 2 (-1) (by omega) (by omega), zc 2 0 (by omega) (by omega), zc 2 1 (by omega) (by omega), zc 2 2 (by omega) (by omega)]
    dsimp only
    congr 1
    push_cast
    generalize (u - qx) / (v - u) = d at sx tx cx4
    generalize (s - qy) / (t - s) = e at sy ty cy4
    generalize weight d (-1) = w0 at *; generalize weight d 0 = w1 at *; generalize weight d 1 = w2 at *; generalize weight d 2 = w3 at *
    generalize weight e (-1) = o0 at *; generalize weight e 0 = o1 at *; generalize weight e 1 = o2 at *; generalize weight e 2 = o3 at *
    have hqx : qx = u - d * hx := by linarith
    have hqy : qy = s - e * hy := by linarith
    have hd : d = w0 - w2 - w3 * 2 := by linarith
    have he : e = o0 - o2 - o3 * 2 := by linarith
    have hw : w1 = 1 - w0 - w2 - w3 := by linarith
    have ho : o1 = 1 - o0 - o2 - o3 := by linarith
    rw [hqx, hqy, hd, he, hw, ho]
    ring

end LCL.BicubicProps
