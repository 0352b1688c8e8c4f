import Verif.Model.SniaRates
import Verif.Spec.SniaRates
import Verif.Lemmas.Passband
import Mathlib.MeasureTheory.Integral.IntervalIntegral.TrapezoidalRule
import Mathlib.Analysis.SpecialFunctions.Pow.Deriv
import Mathlib.Analysis.SpecialFunctions.Sqrt

/-!
# C108: the number of type Ia supernovae in bins of redshift
-/

namespace LCL.SniaProps
open LCL LCL.PassbandLemmas LCL.SniaRates LCL.SniaSpec MeasureTheory Real Set

/-! ## Lists and the trapezoidal rule -/

theorem trapCells_map (x y : Nat → ℝ) : ∀ (n s : Nat),
    trapCells ((List.range' s (n + 1)).map fun i => (x i, y i)) = (List.range' s n).map fun i => (x (i + 1) - x i) * (y (i + 1) + y i) / 2
  | 0, s => rfl
  | n + 1, s => by
    have := trapCells_map x y n (s + 1)
    rw [List.range'_succ (n := n)] at this
    rw [List.range'_succ, List.range'_succ (n := n), List.map_cons, List.map_cons, List.range'_succ (n := n), List.map_cons]
    rw [List.map_cons] at this
    unfold trapCells
    rw [this]

theorem list_sum_range (f : Nat → ℝ) : ∀ n : Nat, ((List.range n).map f).sum = ∑ i ∈ Finset.range n, f i
  | 0 => rfl
  | n + 1 => by rw [List.range_succ, List.map_append, List.sum_append, list_sum_range f n, Finset.sum_range_succ]; simp

theorem trapezoid_eq (f : ℝ → ℝ) (a b : ℝ) {n : Nat} (hn : 0 < n) :
    trapezoid ((linspace a b (n + 1)).map fun z => (z, f z)) = trapezoidal_integral f n a b := by
  have hn' : (n : ℝ) ≠ 0 := by positivity
  have e : b = a + n * ((b - a) / n) := by field_simp; ring
  conv_rhs => rw [e, ← sum_trapezoidal_integral_adjacent_intervals hn]
  unfold trapezoid linspace
  rw [List.map_map]
  have := trapCells_map (fun i => a + i * ((b - a) / n)) (fun i => f (a + i * ((b - a) / n))) n 0
  rw [← List.range_eq_range', ← List.range_eq_range'] at this
  have hf : ((fun z => (z, f z)) ∘ fun (i : Nat) => a + (i : ℝ) * ((b - a) / ((n + 1 - 1 : Nat) : ℝ))) =
      fun (i : Nat) => (a + (i : ℝ) * ((b - a) / n), f (a + (i : ℝ) * ((b - a) / n))) := by
    funext i; simp
  rw [hf, this, list_sum_range]
  apply Finset.sum_congr rfl
  intro i _
  rw [trapezoidal_integral_one]
  push_cast
  ring

/-! ## The integrand -/

theorem arg_pos {om z : ℝ} (ho : 0 ≤ om) (hz : 0 ≤ z) : 0 < om * (1 + z) ^ 3 + (1 - om) := by
  have h1 : 1 ≤ (1 + z) ^ 3 := one_le_pow₀ (by linarith)
  nlinarith

theorem efunc_pos {om z : ℝ} (ho : 0 ≤ om) (hz : 0 ≤ z) : 0 < efunc om z := Real.sqrt_pos.2 (arg_pos ho hz)

/-- The redshifts at which everything is smooth. -/
def dom (om : ℝ) : Set ℝ := {z | -1 < z ∧ 0 < om * (1 + z) ^ 3 + (1 - om)}

theorem dom_open (om : ℝ) : IsOpen (dom om) := by
  have h1 : IsOpen {z : ℝ | 0 < om * (1 + z) ^ 3 + (1 - om)} := isOpen_lt (by fun_prop) (by fun_prop)
  exact (isOpen_Ioi (a := (-1 : ℝ))).inter h1

theorem dom_up {om a b : ℝ} (ho : 0 ≤ om) (ha : a ∈ dom om) (h : a ≤ b) : b ∈ dom om := by
  refine ⟨lt_of_lt_of_le ha.1 h, lt_of_lt_of_le ha.2 ?_⟩
  have h1 := ha.1
  gcongr
  linarith

theorem dom_zero {om : ℝ} (ho : 0 ≤ om) : (0 : ℝ) ∈ dom om := ⟨by norm_num, arg_pos ho le_rfl⟩

theorem dom_nonneg {om z : ℝ} (ho : 0 ≤ om) (hz : 0 ≤ z) : z ∈ dom om := dom_up ho (dom_zero ho) hz

theorem inv_smooth {om : ℝ} {n : WithTop ℕ∞} : ContDiffOn ℝ n (fun z => 1 / efunc om z) (dom om) := by
  have hs : ContDiffOn ℝ n (fun z => efunc om z) (dom om) := by
    unfold efunc
    apply ContDiffOn.sqrt
    · fun_prop
    · intro z hz
      exact hz.2.ne'
  apply contDiffOn_const.div hs
  intro z hz
  exact (Real.sqrt_pos.2 hz.2).ne'

theorem dist_deriv {om : ℝ} (ho : 0 ≤ om) {z : ℝ} (hz : z ∈ dom om) : HasDerivAt (fun z => ∫ x in (0 : ℝ)..z, 1 / efunc om x) (1 / efunc om z) z := by
  have hc : ContinuousOn (fun z => 1 / efunc om z) (dom om) := (inv_smooth (n := 0)).continuousOn
  have hsub : uIcc 0 z ⊆ dom om := by
    intro x hx
    rcases le_total 0 z with h | h
    · rw [uIcc_of_le h] at hx
      exact dom_up ho (dom_zero ho) hx.1
    · rw [uIcc_of_ge h] at hx
      exact dom_up ho hz hx.1
  apply intervalIntegral.integral_hasDerivAt_right
  · exact (hc.mono hsub).intervalIntegrable
  · exact hc.stronglyMeasurableAtFilter (dom_open om) z hz
  · exact hc.continuousAt ((dom_open om).mem_nhds hz)

theorem dist_smooth {om : ℝ} (ho : 0 ≤ om) : ContDiffOn ℝ 2 (fun z => ∫ x in (0 : ℝ)..z, 1 / efunc om x) (dom om) := by
  rw [show (2 : WithTop ℕ∞) = 1 + 1 by norm_num, contDiffOn_succ_iff_deriv_of_isOpen (dom_open om)]
  refine ⟨fun z hz => (dist_deriv ho hz).differentiableAt.differentiableWithinAt, by simp, ?_⟩
  exact inv_smooth.congr fun z hz => (dist_deriv ho hz).deriv

theorem dn_smooth {omega h0 om : ℝ} (ho : 0 ≤ om) : ContDiffOn ℝ 2 (dnDz omega h0 om) (dom om) := by
  have h1 : ContDiffOn ℝ 2 (fun z : ℝ => (1 + z) ^ (17 / 10 : ℝ)) (dom om) := by
    apply ContDiffOn.rpow_const_of_ne
    · fun_prop
    · intro z hz
      have := hz.1
      linarith
  have h2 := dist_smooth ho
  have h3 : ContDiffOn ℝ 2 (fun z => 1 / efunc om z) (dom om) := inv_smooth
  have : dnDz omega h0 om = fun z => 227 / 10 ^ 7 * (1 + z) ^ (17 / 10 : ℝ) *
      (omega * (299792.458 / h0 * (299792.458 / h0 * ∫ x in (0 : ℝ)..z, 1 / efunc om x) ^ 2 * (1 / efunc om z)) * (h0 / 70) ^ 3) := by
    funext z
    unfold dnDz diffVolume comovingDistance Salt2.volumetricRate
    ring
  rw [this]
  exact (contDiffOn_const.mul h1).mul ((contDiffOn_const.mul ((contDiffOn_const.mul ((contDiffOn_const.mul h2).pow 2)).mul h3)).mul contDiffOn_const)

/-- The integrand is the number density of the specification, whatever the Hubble constant. -/
theorem dn_eq {omega h0 om : ℝ} (hh : h0 ≠ 0) (z : ℝ) : dnDz omega h0 om z = omega * density om z := by
  unfold dnDz diffVolume comovingDistance density distance Salt2.volumetricRate
  have e : (∫ x in (0 : ℝ)..z, 299792.458 / (70 * sqrt (om * (1 + x) ^ 3 + 1 - om))) = 299792.458 / 70 * ∫ x in (0 : ℝ)..z, 1 / efunc om x := by
    rw [← intervalIntegral.integral_const_mul]
    congr 1
    funext x
    unfold efunc
    rw [add_sub_assoc, div_mul_div_comm, mul_one]
  rw [e]
  unfold efunc
  rw [add_sub_assoc, show (1.7 : ℝ) = 17 / 10 by norm_num]
  generalize (∫ x in (0 : ℝ)..z, 1 / sqrt (om * (1 + x) ^ 3 + (1 - om))) = I
  rw [← div_div]
  generalize sqrt (om * (1 + z) ^ 3 + (1 - om)) = E
  generalize (1 + z) ^ (17 / 10 : ℝ) = P
  simp only [div_eq_mul_inv]
  generalize E⁻¹ = F
  field_simp
  ring

theorem second_continuous {f : ℝ → ℝ} {U : Set ℝ} (hU : IsOpen U) (hf : ContDiffOn ℝ 2 f U) : ContinuousOn (iteratedDeriv 2 f) U := by
  have h := hf.continuousOn_iteratedDerivWithin (m := 2) le_rfl hU.uniqueDiffOn
  exact h.congr fun x hx => (iteratedDerivWithin_of_isOpen hU hx).symm

theorem trap_error {f : ℝ → ℝ} {U : Set ℝ} (hU : IsOpen U) (hf : ContDiffOn ℝ 2 f U) {a b ζ : ℝ} (hsub : uIcc a b ⊆ U)
    (hζ : ∀ x ∈ uIcc a b, |iteratedDeriv 2 f x| ≤ ζ) {n : Nat} (hn : 0 < n) :
    |trapezoidal_integral f n a b - ∫ x in a..b, f x| ≤ |b - a| ^ 3 * ζ / (12 * n ^ 2) := by
  rcases eq_or_ne a b with h | h
  · subst h
    simp [trapezoidal_integral_eq]
  have h0 : 0 ≤ ζ := (abs_nonneg _).trans (hζ a left_mem_uIcc)
  refine trapezoidal_error_le_of_c2 (hf.mono hsub) (fun x => ?_) hn
  by_cases hx : x ∈ uIcc a b
  · rw [iteratedDerivWithin_eq_iteratedDeriv (uniqueDiffOn_uIcc h) (hf.contDiffAt (hU.mem_nhds (hsub hx))) hx]
    exact hζ x hx
  · have : iteratedDerivWithin 2 f (uIcc a b) x = 0 := by
      rw [show (2 : ℕ) = 1 + 1 from rfl, iteratedDerivWithin_succ]
      apply derivWithin_zero_of_notMem_closure
      rwa [(isCompact_uIcc (a := a) (b := b)).isClosed.closure_eq]
    rw [this, abs_zero]
    exact h0

theorem pairs_eq (zmin zmax : ℝ) (n : Nat) (hn : 0 < n) :
    ((linspace zmin zmax (n + 1)).dropLast.zip (linspace zmin zmax (n + 1)).tail) =
      (List.range n).map fun (k : Nat) => (zmin + k * ((zmax - zmin) / n), zmin + (k + 1) * ((zmax - zmin) / n)) := by
  apply List.ext_getElem?
  intro k
  have hlen : (linspace zmin zmax (n + 1)).length = n + 1 := by simp [linspace]
  by_cases hk : k < n
  · rw [List.getElem?_zip_eq_some (z := (zmin + k * ((zmax - zmin) / n), zmin + (k + 1) * ((zmax - zmin) / n))) |>.2]
    · simp [hk]
    · constructor
      · rw [List.getElem?_dropLast, hlen, if_pos (by omega), linspace_getElem? _ _ _ _ (by omega)]
        simp
      · rw [List.getElem?_tail, linspace_getElem? _ _ _ _ (by omega)]
        push_cast
        simp
  · rw [List.getElem?_eq_none (by simp [hlen]; omega), List.getElem?_eq_none (by simp; omega)]

theorem mean_eq (a b : ℝ) : (linspace a b 50).sum / 50 = (a + b) / 2 := by
  unfold linspace
  rw [list_sum_range]
  simp only [Finset.sum_range_succ, Finset.sum_range_zero]
  push_cast
  ring

/-- The result of the function for `n ≥ 1` bins. -/
theorem num_ok {zmin zmax : ℝ} {n : Nat} (hn : 0 < n) (sa : Option ℝ) {h0 om : ℝ} (ho : 0 ≤ om) :
    numPerBin zmin zmax n sa h0 om = .ok
      ((List.range n).map fun (k : Nat) => trapezoidal_integral (dnDz (sa.getD (4 * π)) h0 om) 49 (zmin + k * ((zmax - zmin) / n)) (zmin + (k + 1) * ((zmax - zmin) / n)),
       (List.range n).map fun (k : Nat) => (zmin + k * ((zmax - zmin) / n) + (zmin + (k + 1) * ((zmax - zmin) / n))) / 2) := by
  unfold numPerBin
  dsimp only
  rw [if_neg (not_lt.2 ho), if_neg (by omega)]
  rw [show ((n : Int) + 1).toNat = n + 1 by omega, pairs_eq _ _ _ hn]
  simp only [List.map_map]
  refine congrArg Except.ok (Prod.ext ?_ ?_)
  · apply List.map_congr_left
    intro k _
    exact trapezoid_eq _ _ _ (by norm_num)
  · apply List.map_congr_left
    intro k _
    exact mean_eq _ _

/-- **C108.** The numbers of supernovae per bin. For every range of redshifts, matter density and solid angle (the whole sky if none is given) there is a constant
such that, for every Hubble constant and every number `n` of bins: the bins divide the range equally, the mean redshift of each bin is its middle, the number in
each bin is the expected number of the specification up to `C / n³`, and their sum is the expected number in the whole range up to `C / n²`. In particular the
numbers depend neither on the Hubble constant nor, but for this error, on the number of bins. -/
theorem C108_accuracy {zmin zmax om : ℝ} (hz : 0 ≤ zmin) (hzz : 0 ≤ zmax) (ho : 0 ≤ om) (sa : Option ℝ) :
    ∃ C : ℝ, ∀ (h0 : ℝ), h0 ≠ 0 → ∀ n : Nat, 0 < n → ∃ num mean : List ℝ, numPerBin zmin zmax n sa h0 om = .ok (num, mean) ∧
      num.length = n ∧ mean.length = n ∧
      (∀ k < n, mean[k]? = some (zmin + (k + 1 / 2) * ((zmax - zmin) / n)) ∧
        ∃ v, num[k]? = some v ∧
          |v - expected (sa.getD (4 * π)) om (zmin + k * ((zmax - zmin) / n)) (zmin + (k + 1) * ((zmax - zmin) / n))| ≤ C / n ^ 3) ∧
      |num.sum - expected (sa.getD (4 * π)) om zmin zmax| ≤ C / n ^ 2 := by
  generalize hom : sa.getD (4 * π) = omega
  have hdom : uIcc zmin zmax ⊆ dom om := by
    intro x hx
    exact dom_nonneg ho (le_trans (le_min hz hzz) hx.1)
  have hsm : ContDiffOn ℝ 2 (fun z => omega * density om z) (dom om) :=
    (dn_smooth (omega := omega) (h0 := 70) ho).congr fun z _ => (dn_eq (by norm_num) z).symm
  obtain ⟨ζ, hζ⟩ := (isCompact_uIcc (a := zmin) (b := zmax)).exists_bound_of_continuousOn ((second_continuous (dom_open om) hsm).mono hdom)
  refine ⟨|zmax - zmin| ^ 3 * ζ / (12 * 49 ^ 2), ?_⟩
  intro h0 hh n hn
  have hn' : (0 : ℝ) < n := by exact_mod_cast hn
  have hfun : dnDz omega h0 om = fun z => omega * density om z := funext fun z => dn_eq hh z
  have hedge : ∀ k : Nat, k ≤ n → zmin + k * ((zmax - zmin) / n) ∈ uIcc zmin zmax := by
    intro k hk
    have hk' : (k : ℝ) / n ≤ 1 := by rw [div_le_one hn']; exact_mod_cast hk
    have hk0 : 0 ≤ (k : ℝ) / n := by positivity
    have e : zmin + k * ((zmax - zmin) / n) = zmin + (k / n) * (zmax - zmin) := by ring
    rw [e, mem_uIcc]
    rcases le_total zmin zmax with h | h
    · left
      constructor <;> nlinarith
    · right
      constructor <;> nlinarith
  have hbin : ∀ k : Nat, k < n →
      |trapezoidal_integral (fun z => omega * density om z) 49 (zmin + k * ((zmax - zmin) / n)) (zmin + (k + 1) * ((zmax - zmin) / n)) -
        expected omega om (zmin + k * ((zmax - zmin) / n)) (zmin + (k + 1) * ((zmax - zmin) / n))| ≤ |zmax - zmin| ^ 3 * ζ / (12 * 49 ^ 2) / n ^ 3 := by
    intro k hk
    have e1 := hedge k hk.le
    have e2 := hedge (k + 1) hk
    push_cast at e2
    have hsub := uIcc_subset_uIcc e1 e2
    have := trap_error (dom_open om) hsm (hsub.trans hdom) (fun x hx => hζ x (hsub hx)) (n := 49) (by norm_num)
    unfold expected
    rw [← intervalIntegral.integral_const_mul]
    refine this.trans (le_of_eq ?_)
    rw [show zmin + (k + 1) * ((zmax - zmin) / n) - (zmin + k * ((zmax - zmin) / n)) = (zmax - zmin) / n by ring, abs_div, abs_of_pos hn', div_pow]
    push_cast
    ring
  refine ⟨_, _, num_ok hn sa ho, by simp, by simp, ?_, ?_⟩
  · intro k hk
    refine ⟨?_, ?_⟩
    · rw [List.getElem?_map, List.getElem?_range hk]
      simp only [Option.map_some, Option.some.injEq]
      ring
    · refine ⟨_, by rw [List.getElem?_map, List.getElem?_range hk]; rfl, ?_⟩
      rw [hom, hfun]
      exact hbin k hk
  · rw [list_sum_range, hom, hfun]
    have hint : ∀ k < n, IntervalIntegrable (fun z => omega * density om z) volume (zmin + (k : ℕ) * ((zmax - zmin) / n)) (zmin + ((k + 1 : ℕ)) * ((zmax - zmin) / n)) := by
      intro k hk
      exact ((hsm.continuousOn).mono ((uIcc_subset_uIcc (hedge k hk.le) (hedge (k + 1) hk)).trans hdom)).intervalIntegrable
    have hsum := intervalIntegral.sum_integral_adjacent_intervals (a := fun k : ℕ => zmin + (k : ℝ) * ((zmax - zmin) / n)) hint
    have htot : expected omega om zmin zmax = ∑ k ∈ Finset.range n, expected omega om (zmin + k * ((zmax - zmin) / n)) (zmin + (k + 1) * ((zmax - zmin) / n)) := by
      unfold expected
      simp only [← intervalIntegral.integral_const_mul]
      push_cast at hsum
      rw [hsum]
      congr 1
      · simp
      · field_simp
        ring
    rw [htot, ← Finset.sum_sub_distrib]
    refine (Finset.abs_sum_le_sum_abs _ _).trans ((Finset.sum_le_card_nsmul _ _ _ fun k hk => hbin k (Finset.mem_range.1 hk)).trans (le_of_eq ?_))
    rw [Finset.card_range, nsmul_eq_mul]
    field_simp

/-- **C108.** The Hubble constant has no influence on the result, and the numbers are proportional to the solid angle. -/
theorem C108_scaling {zmin zmax om h0 h0' c omega : ℝ} (hh : h0 ≠ 0) (hh' : h0' ≠ 0) (ho : 0 ≤ om) {n : Nat} (hn : 0 < n) (sa : Option ℝ) :
    numPerBin zmin zmax n sa h0 om = numPerBin zmin zmax n sa h0' om ∧
    (∀ num mean, numPerBin zmin zmax n (some omega) h0 om = .ok (num, mean) →
      numPerBin zmin zmax n (some (c * omega)) h0 om = .ok (num.map (c * ·), mean)) ∧
    numPerBin zmin zmax n none h0 om = numPerBin zmin zmax n (some (4 * π)) h0 om := by
  refine ⟨?_, ?_, rfl⟩
  · rw [num_ok hn _ ho, num_ok hn _ ho, show dnDz (sa.getD (4 * π)) h0 om = dnDz (sa.getD (4 * π)) h0' om from funext fun z => by rw [dn_eq hh, dn_eq hh']]
  · intro num mean h
    rw [num_ok hn _ ho] at h ⊢
    injection h with h
    injection h with h1 h2
    rw [← h1, ← h2, List.map_map]
    refine congrArg Except.ok (Prod.ext (List.map_congr_left fun k _ => ?_) rfl)
    have : dnDz (c * omega) h0 om = fun z => c * dnDz omega h0 om z := funext fun z => by rw [dn_eq hh, dn_eq hh]; ring
    simp only [Option.getD_some, Function.comp]
    rw [this]
    unfold trapezoidal_integral
    simp only [← Finset.mul_sum]
    ring

theorem density_pos {om z : ℝ} (ho : 0 ≤ om) (hz : 0 < z) : 0 < density om z := by
  rw [← one_mul (density om z), ← dn_eq (h0 := 70) (by norm_num)]
  unfold dnDz diffVolume comovingDistance Salt2.volumetricRate
  have h1 := efunc_pos ho hz.le
  have hI : 0 < ∫ x in (0 : ℝ)..z, 1 / efunc om x := by
    apply intervalIntegral.intervalIntegral_pos_of_pos_on
    · apply ContinuousOn.intervalIntegrable
      refine (inv_smooth (n := 0)).continuousOn.mono ?_
      intro x hx
      rw [uIcc_of_le hz.le] at hx
      exact dom_nonneg ho hx.1
    · intro x hx
      exact one_div_pos.2 (efunc_pos ho hx.1.le)
    · exact hz
  have : 0 < 1 + z := by linarith
  positivity

/-- **C108.** In an ascending range every bin has a positive number of supernovae. A negative matter density or a number of bins below minus one raises ValueError;
with no bins (or minus one) the result is empty. -/
theorem C108_range {zmin zmax om h0 : ℝ} (hh : h0 ≠ 0) {sa : Option ℝ} :
    (0 < zmin → zmin < zmax → 0 ≤ om → 0 < sa.getD (4 * π) → ∀ n : Nat, 0 < n → ∀ num mean, numPerBin zmin zmax n sa h0 om = .ok (num, mean) → ∀ v ∈ num, 0 < v) ∧
    (∀ n : Int, om < 0 ∨ n < -1 → numPerBin zmin zmax n sa h0 om = .error .valueError) ∧
    (0 ≤ om → numPerBin zmin zmax 0 sa h0 om = .ok ([], []) ∧ numPerBin zmin zmax (-1) sa h0 om = .ok ([], [])) := by
  refine ⟨?_, ?_, ?_⟩
  · intro hz hlt ho hs n hn num mean h v hv
    rw [num_ok hn _ ho] at h
    injection h with h
    injection h with h1 _
    rw [← h1, List.mem_map] at hv
    obtain ⟨k, _, rfl⟩ := hv
    have hn' : (0 : ℝ) < n := by exact_mod_cast hn
    have hw : 0 < (zmax - zmin) / n := div_pos (by linarith) hn'
    have hpos : ∀ z, 0 < z → 0 < dnDz (sa.getD (4 * π)) h0 om z := by
      intro z hz
      rw [dn_eq hh]
      exact mul_pos hs (density_pos ho hz)
    have hk : 0 ≤ (k : ℝ) * ((zmax - zmin) / n) := by positivity
    unfold trapezoidal_integral
    have e : zmin + (k + 1) * ((zmax - zmin) / n) - (zmin + k * ((zmax - zmin) / n)) = (zmax - zmin) / n := by ring
    rw [e]
    apply mul_pos (by positivity)
    apply add_pos_of_pos_of_nonneg
    · have a1 := hpos (zmin + k * ((zmax - zmin) / n)) (by positivity)
      have a2 := hpos (zmin + (k + 1) * ((zmax - zmin) / n)) (by positivity)
      positivity
    · apply Finset.sum_nonneg
      intro i _
      refine (hpos _ ?_).le
      positivity
  · rintro n (h | h)
    · unfold numPerBin
      dsimp only
      rw [if_pos h]
    · unfold numPerBin
      dsimp only
      by_cases ho : om < 0
      · rw [if_pos ho]
      · rw [if_neg ho, if_pos (by omega)]
  · intro ho
    unfold numPerBin
    dsimp only
    rw [if_neg (not_lt.2 ho), if_neg (by norm_num), if_neg (not_lt.2 ho), if_neg (by norm_num)]
    constructor <;> simp [linspace]

/-- The default arguments of the survey simulation: a hundred bins between 0.1 and 0.4, whose first one has its middle at 0.1015. -/
example : ∃ num mean, numPerBin 0.1 0.4 100 none 70 0.3 = .ok (num, mean) ∧ (∀ v ∈ num, 0 < v) ∧ mean[0]? = some (0.1015 : ℝ) := by
  obtain ⟨C, hC⟩ := C108_accuracy (zmin := 0.1) (zmax := 0.4) (om := 0.3) (by norm_num) (by norm_num) (by norm_num) none
  obtain ⟨num, mean, h, -, -, hb, -⟩ := hC 70 (by norm_num) 100 (by norm_num)
  refine ⟨num, mean, h, ?_, ?_⟩
  · exact (C108_range (h0 := 70) (by norm_num) (sa := none)).1 (by norm_num) (by norm_num) (by norm_num) (by simp [pi_pos]) 100 (by norm_num) num mean h
  · rw [(hb 0 (by norm_num)).1]
    norm_num

end LCL.SniaProps
