import Verif.Props.Passband1

/-!
# Property C26: bandfluxes
-/

namespace LCL.PassbandProps
open LCL LCL.PassbandSpec LCL.PassbandLemmas
variable {K : Type} [Field K] [LinearOrder K] [IsStrictOrderedRing K] [FloorRing K]

omit [Field K] [IsStrictOrderedRing K] [FloorRing K] in
theorem exists_bound (d : K) : ∀ (l : List K), ∃ b, d ≤ b ∧ ∀ y ∈ l, y ≤ b := by
  intro l
  induction l with
  | nil => exact ⟨d, le_rfl, by simp⟩
  | cons a l ih =>
    obtain ⟨b, h0, h⟩ := ih
    refine ⟨max a b, le_max_of_le_right h0, ?_⟩
    intro y hy
    rcases List.mem_cons.1 hy with rfl | hm
    · exact le_max_left _ _
    · exact le_max_of_le_right (h y hm)

/-- A positive grid step, or none. -/
def GoodStep (delta : Option K) : Prop := ∀ d, delta = some d → 0 < d

/-- How the final grid relates to the requested step. -/
def GridOf (delta : Option K) (waves : List K) : Prop :=
  ∀ d, delta = some d → Steps (fun g => isClose g d) waves ∨ ∃ h, d ≤ h ∧ h < 2 * d ∧ Steps (fun g => g = h) waves

theorem interpolate_facts {t t1 : List (K × K)} {delta : Option K} (hd : GoodStep delta) (hp : Physical t)
    (hs : Steps (fun g => 0 < g) (t.map (·.1))) (h : Passband.interpolate t delta = .ok t1) :
    Physical t1 ∧ Steps (fun g => 0 < g) (t1.map (·.1)) ∧ (2 ≤ t1.length → GridOf delta (t1.map (·.1))) := by
  cases delta with
  | none =>
    cases h
    exact ⟨hp, hs, fun _ d h => by cases h⟩
  | some d =>
    have hd' := hd d rfl
    rcases interpolate_cases hd' (steps_pos_pairwise hs) h with ⟨rfl, hc⟩ | ⟨lo, hi, n, g1, g2, g3, g4, g5, rfl⟩
    · exact ⟨hp, hs, fun _ d' h => by cases h; exact Or.inl hc⟩
    · have hmap : ((linspace lo hi (n + 1)).map fun w => (w, interpAt (t.map (·.1)) (t.map (·.2)) w)).map (·.1) =
          linspace lo hi (n + 1) := by rw [List.map_map]; simp [Function.comp_def]
      have hst := linspace_steps lo hi (n + 1)
      simp only [Nat.add_sub_cancel] at hst
      have hlo0 : 0 < lo := by
        obtain ⟨p, hp', e⟩ := List.mem_map.1 (List.mem_of_mem_head? g1)
        rw [← e]; exact (hp p hp').1
      rw [hmap]
      refine ⟨?_, ?_, ?_⟩
      · intro p hm
        obtain ⟨w, hw, rfl⟩ := List.mem_map.1 hm
        have hwl := (linspace_mem lo hi g3.le _ w hw).1
        refine ⟨lt_of_lt_of_le hlo0 hwl, ?_⟩
        obtain ⟨b, _, hb⟩ := exists_bound 0 (t.map (·.2))
        refine (interpAt_bounds (lo := 0) (hi := b) _ _ w (by simp) ?_ ?_ ?_).1
        · intro h0
          rw [List.map_eq_nil_iff] at h0
          rw [h0] at g1; simp at g1
        · intro x hx
          rw [g1] at hx; cases hx; exact hwl
        · intro y hy
          refine ⟨?_, hb y hy⟩
          obtain ⟨q, hq, rfl⟩ := List.mem_map.1 hy
          exact (hp q hq).2
      · by_cases hn : n = 0
        · subst hn
          unfold Steps linspace
          simp
        · refine Steps_mono ?_ hst
          intro g hg
          rw [hg]
          exact div_pos (by linarith) (by rw [Nat.cast_pos]; omega)
      · intro hlen d' h'
        cases h'
        have hn : 1 ≤ n := by simp [linspace] at hlen; omega
        have hn0 : (0 : K) < n := by rw [Nat.cast_pos]; omega
        refine Or.inr ⟨(hi - lo) / n, ?_, ?_, hst⟩
        · rw [le_div_iff₀ hn0]; linarith
        · rw [div_lt_iff₀ hn0]
          have : (1 : K) ≤ n := by exact_mod_cast hn
          nlinarith

/-- What every constructed passband is. -/
structure Built (pb : Passband K) (dw : Option K) : Prop where
  waves : pb.waves = pb.table.map (·.1)
  delta : pb.deltaWave = dw
  two : 2 ≤ pb.table.length
  steps : Steps (fun g => 0 < g) pb.waves
  nonneg : ∀ p ∈ pb.table, 0 < p.1 ∧ 0 ≤ p.2
  area : PassbandSpec.area pb.table = 1
  grid : GridOf dw pb.waves

theorem process_facts {t t2 : List (K × K)} {delta q : Option K} (hd : GoodStep delta) (hp : Physical t)
    (hs : Steps (fun g => 0 < g) (t.map (·.1))) (h : Passband.process t delta q = .ok t2) :
    2 ≤ t2.length ∧ Steps (fun g => 0 < g) (t2.map (·.1)) ∧ (∀ p ∈ t2, 0 < p.1 ∧ 0 ≤ p.2) ∧ area t2 = 1 ∧
    GridOf delta (t2.map (·.1)) := by
  unfold Passband.process at h
  split at h
  · cases h
  · rename_i t1 h1
    split at h
    · cases h
    · rename_i t1' h2
      obtain ⟨p1, s1, g1⟩ := interpolate_facts hd hp hs h1
      have hinf := trim_ok h2
      have p2 := physical_infix hinf p1
      have s2 := steps_infix hinf s1
      obtain ⟨hl, hm, ha, den, _, _, e⟩ := normalize_ok h
      have hlen : t2.length = t1'.length := by rw [e]; simp
      refine ⟨by omega, by rw [hm]; exact s2, normalize_nonneg h p2 s2, ha, ?_⟩
      rw [hm]
      intro d hd'
      have hl1 : 2 ≤ t1.length := le_trans hl hinf.length_le
      rcases g1 hl1 d hd' with hc | ⟨h', a, b, c⟩
      · exact Or.inl (steps_infix hinf hc)
      · exact Or.inr ⟨h', a, b, steps_infix hinf c⟩

theorem init_built {t : List (K × K)} {survey f : Name} {delta q : Option K} {units : String} {pb : Passband K}
    (hp : Physical t) (hd : GoodStep delta) (h : Passband.init t survey f delta q units = .ok pb) : Built pb delta := by
  unfold Passband.init at h
  split at h
  · cases h
  · rename_i t0 h0
    obtain ⟨rfl, hs⟩ := validate_ok h0
    split at h
    · cases h
    · rename_i t1 h1
      have hconv : Physical t1 ∧ Steps (fun g => 0 < g) (t1.map (·.1)) := by
        unfold Passband.toAngstrom at h1
        split at h1
        · cases h1
          constructor
          · intro p hm
            obtain ⟨r, hr, rfl⟩ := List.mem_map.1 hm
            exact ⟨mul_pos (hp r hr).1 (by norm_num), (hp r hr).2⟩
          · rw [List.map_map]
            unfold Steps at hs ⊢
            rw [List.isChain_map] at hs ⊢
            refine hs.imp ?_
            intro a b hab
            simp only [Function.comp_apply]
            linarith
        · split at h1
          · cases h1; exact ⟨hp, hs⟩
          · cases h1
      split at h
      · cases h
      · rename_i t2 h2
        cases h
        obtain ⟨a, b, c, d, e⟩ := process_facts hd hconv.1 hconv.2 h2
        exact ⟨rfl, rfl, a, b, c, d, e⟩

/-! ## Integration -/

theorem integrate_none {pb : Passband K} (h : pb.deltaWave = none) (flux : List K) :
    pb.integrate flux = area (List.zip pb.waves (List.zipWith (· * ·) flux (pb.table.map (·.2)))) := by
  unfold Passband.integrate
  rw [h]
  exact trapezoid_eq_area _

theorem integrate_some {pb : Passband K} {d : K} (h : pb.deltaWave = some d) (flux : List K) :
    pb.integrate flux = midSum (List.zipWith (· * ·) flux (pb.table.map (·.2))) * d := by
  unfold Passband.integrate
  rw [h]; rfl

theorem zipWith_flat (c : K) : ∀ (ys : List K), List.zipWith (· * ·) (List.replicate ys.length c) ys = ys.map (c * ·) := by
  intro ys
  induction ys with
  | nil => rfl
  | cons y ys ih => simp [List.replicate_succ, ih]

theorem zip_table (c : K) (t : List (K × K)) : List.zip (t.map (·.1)) ((t.map (·.2)).map (c * ·)) = t.map fun p => (p.1, c * p.2) := by
  induction t with
  | nil => rfl
  | cons p t ih => simp only [List.map_cons, List.zip_cons_cons, ih]

theorem midSum_scale (c : K) (ys : List K) : midSum (ys.map (c * ·)) = c * midSum ys := by
  induction ys with
  | nil => simp [midSum]
  | cons a ys ih =>
    cases ys with
    | nil => simp [midSum_single]
    | cons b ys =>
      simp only [List.map_cons, midSum_cons] at ih ⊢
      rw [ih]; ring

/-- The flat spectrum of value `c` on the passband's grid. -/
def flat (pb : Passband K) (c : K) : List K := List.replicate pb.waves.length c

theorem integrate_flat_none {pb : Passband K} (hb : Built pb none) (c : K) : pb.integrate (flat pb c) = c := by
  rw [integrate_none hb.delta]
  have hl : pb.waves.length = (pb.table.map (·.2)).length := by rw [hb.waves]; simp
  unfold flat
  rw [hl, zipWith_flat, hb.waves, zip_table, area_scale, hb.area, mul_one]

theorem integrate_flat_some {pb : Passband K} {d : K} (hb : Built pb (some d)) (c : K) :
    pb.integrate (flat pb c) = c * (d * midSum (pb.table.map (·.2))) := by
  rw [integrate_some hb.delta]
  have hl : pb.waves.length = (pb.table.map (·.2)).length := by rw [hb.waves]; simp
  unfold flat
  rw [hl, zipWith_flat, midSum_scale]
  ring

/-- The rectangular sum of the normalised transmission, when the steps are between `a` and `b`. -/
theorem sum_between {pb : Passband K} {delta : Option K} (hb : Built pb delta) {a b : K}
    (hs : Steps (fun g => a ≤ g ∧ g ≤ b) pb.waves) :
    a * midSum (pb.table.map (·.2)) ≤ 1 ∧ 1 ≤ b * midSum (pb.table.map (·.2)) := by
  rw [← hb.area]
  exact area_steps a b pb.table (fun p h => (hb.nonneg p h).2) (by rw [← hb.waves]; exact hs)

/-- C26 (flat spectra), where the property holds. For every constructed passband: a flat spectrum of
value `c` has bandflux exactly `c` when the passband is built without a grid step
(`delta_wave=None`), and when its grid steps are exactly `delta_wave`. Missing: other steps, see
`C26_flat_ratio` and `C26_flat_counterexample`. -/
theorem C26_flat_partial (t : List (K × K)) (survey f : Name) (delta q : Option K) (units : String) (pb : Passband K)
    (hp : Physical t) (hd : GoodStep delta) (h : Passband.init t survey f delta q units = .ok pb)
    (hexact : ∀ d, delta = some d → Steps (fun g => g = d) pb.waves) (c : K) (n : Nat) (hn : 0 < n) :
    pb.bandflux (List.replicate n (flat pb c)) = .ok (List.replicate n c) := by
  have hb := init_built hp hd h
  have hw : pb.waves.length ≠ 0 := by have := hb.two; rw [hb.waves, List.length_map]; omega
  have hint : pb.integrate (flat pb c) = c := by
    cases delta with
    | none => exact integrate_flat_none hb c
    | some d =>
      have hs := hexact d rfl
      obtain ⟨h1, h2⟩ := sum_between hb (Steps_mono (fun g (hg : g = d) => ⟨hg.ge, hg.le⟩) hs)
      rw [integrate_flat_some hb, le_antisymm h1 h2, mul_one]
  obtain ⟨m, rfl⟩ : ∃ m, n = m + 1 := ⟨n - 1, by omega⟩
  unfold Passband.bandflux
  rw [List.replicate_succ]
  simp only
  rw [if_neg (by unfold flat; simp [hw]), if_neg (by simp [flat])]
  rw [← List.replicate_succ, List.map_replicate, hint]

/-- C26 (flat spectra), in general. For every constructed passband with a positive `delta_wave`, a
flat spectrum of value `c ≥ 0` has bandflux `c * r`, where either all grid steps are within numpy's
`allclose` of `delta_wave` and `delta / (delta + tol) ≤ r ≤ delta / (delta - tol)`, or the grid was
recomputed with equal steps `h ∈ [delta, 2 delta)` and `r = delta / h`: so `1/2 < r ≤ 1`. -/
theorem C26_flat_ratio (t : List (K × K)) (survey f : Name) (d : K) (q : Option K) (units : String) (pb : Passband K)
    (hp : Physical t) (hd : 0 < d) (h : Passband.init t survey f (some d) q units = .ok pb) (c : K) :
    ∃ r, pb.integrate (flat pb c) = c * r ∧
      ((∃ h, d ≤ h ∧ h < 2 * d ∧ Steps (fun g => g = h) pb.waves ∧ r = d / h ∧ 1 / 2 < r ∧ r ≤ 1) ∨
       (Steps (fun g => isClose g d) pb.waves ∧
        d ≤ (d + (1 / 10 ^ 8 + 1 / 10 ^ 5 * d)) * r ∧ (d - (1 / 10 ^ 8 + 1 / 10 ^ 5 * d)) * r ≤ d)) := by
  have hb := init_built hp (fun d' h' => by cases h'; exact hd) h
  refine ⟨d * midSum (pb.table.map (·.2)), integrate_flat_some hb c, ?_⟩
  rcases hb.grid d rfl with hc | ⟨hh, h1, h2, h3⟩
  · right
    refine ⟨hc, ?_⟩
    have hs : Steps (fun g => d - (1 / 10 ^ 8 + 1 / 10 ^ 5 * d) ≤ g ∧ g ≤ d + (1 / 10 ^ 8 + 1 / 10 ^ 5 * d)) pb.waves := by
      refine Steps_mono ?_ hc
      intro g hg
      unfold isClose at hg
      rw [abs_of_pos hd, abs_le] at hg
      exact ⟨by linarith [hg.1], by linarith [hg.2]⟩
    obtain ⟨a, b⟩ := sum_between hb hs
    constructor <;> nlinarith
  · left
    have hpos : 0 < hh := lt_of_lt_of_le hd h1
    obtain ⟨a, b⟩ := sum_between hb (Steps_mono (fun g (hg : g = hh) => ⟨hg.ge, hg.le⟩) h3)
    have e : midSum (pb.table.map (·.2)) = 1 / hh := by
      rw [eq_div_iff hpos.ne']; linarith
    refine ⟨hh, h1, h2, h3, by rw [e]; ring, ?_, ?_⟩
    · rw [e, mul_one_div, lt_div_iff₀ hpos]; linarith
    · rw [e, mul_one_div, div_le_one hpos]; exact h1

/-- C26 (linear). The bandflux of a combination of two spectra is the combination of the bandfluxes:
for every passband, constructed in whatever way. -/
theorem C26_linear (pb : Passband K) (hl : pb.waves = pb.table.map (·.1)) (a b : K) (fs gs : List K)
    (h1 : fs.length = pb.waves.length) (h2 : gs.length = pb.waves.length) :
    pb.integrate (List.zipWith (fun f g => a * f + b * g) fs gs) = a * pb.integrate fs + b * pb.integrate gs := by
  have key : ∀ (fs gs ys : List K), fs.length = ys.length → gs.length = ys.length →
      List.zipWith (· * ·) (List.zipWith (fun f g => a * f + b * g) fs gs) ys =
      List.zipWith (fun f g => a * f + b * g) (List.zipWith (· * ·) fs ys) (List.zipWith (· * ·) gs ys) := by
    intro fs
    induction fs with
    | nil => intro gs ys _ _; simp
    | cons f fs ih =>
      intro gs ys e1 e2
      match gs, ys, e1, e2 with
      | [], [], e1, _ => simp at e1
      | g :: gs, y :: ys, e1, e2 =>
        simp only [List.zipWith_cons_cons]
        rw [ih gs ys (by simpa using e1) (by simpa using e2)]
        congr 1
        ring
  have hlen : pb.waves.length = (pb.table.map (·.2)).length := by rw [hl]; simp
  have hk := key fs gs (pb.table.map (·.2)) (h1.trans hlen) (h2.trans hlen)
  have hlen2 : (List.zipWith (· * ·) fs (pb.table.map (·.2))).length = (List.zipWith (· * ·) gs (pb.table.map (·.2))).length := by
    rw [List.length_zipWith, List.length_zipWith, h1, h2]
  cases hd : pb.deltaWave with
  | none =>
    rw [integrate_none hd, integrate_none hd, integrate_none hd, hk]
    exact area_linear a b _ _ _ hlen2
  | some d =>
    rw [integrate_some hd, integrate_some hd, integrate_some hd, hk, midSum_linear a b _ _ hlen2]
    ring

theorem zip_steps {P : K → Prop} {xs : List K} (h : Steps P xs) (ys : List K) : Steps P ((List.zip xs ys).map (·.1)) := by
  have hpre : (List.zip xs ys).map (·.1) <+: xs := by
    induction xs generalizing ys with
    | nil => simp
    | cons x xs ih =>
      cases ys with
      | nil => simp
      | cons y ys =>
        simp only [List.zip_cons_cons, List.map_cons]
        rw [List.cons_prefix_cons]
        exact ⟨rfl, ih h.tail ys⟩
  exact List.IsChain.infix h hpre.isInfix

/-- C26 (non-negative). A non-negative spectrum has a non-negative bandflux. -/
theorem C26_nonneg (t : List (K × K)) (survey f : Name) (delta q : Option K) (units : String) (pb : Passband K)
    (hp : Physical t) (hd : GoodStep delta) (h : Passband.init t survey f delta q units = .ok pb) (flux : List K)
    (hf : ∀ x ∈ flux, 0 ≤ x) : 0 ≤ pb.integrate flux := by
  have hb := init_built hp hd h
  have hi : ∀ x ∈ List.zipWith (· * ·) flux (pb.table.map (·.2)), 0 ≤ x := by
    intro x hx
    obtain ⟨i, hi, rfl⟩ := List.getElem_of_mem hx
    rw [List.getElem_zipWith]
    apply mul_nonneg (hf _ (List.getElem_mem _))
    rw [List.getElem_map]
    exact (hb.nonneg _ (List.getElem_mem _)).2
  cases hdw : delta with
  | none =>
    rw [integrate_none (hb.delta.trans hdw)]
    apply area_nonneg
    · intro p hm
      exact hi _ (List.of_mem_zip (show (p.1, p.2) ∈ _ from hm)).2
    · exact zip_steps (Steps_mono (fun g hg => le_of_lt hg) hb.steps) _
  | some d =>
    rw [integrate_some (hb.delta.trans hdw)]
    exact mul_nonneg (midSum_nonneg _ hi) (hd d hdw).le

/-- C26 (bounded). A spectrum bounded by `M ≥ 0` has a bandflux of at most `M` whenever the flat
spectrum does not exceed its value: without a grid step, and on every recomputed grid (equal steps
at least `delta_wave`). Spectra on a table used as it is (steps only `allclose` to `delta_wave`) are
bounded by `M * delta / (delta - tol)`, through `C26_flat_ratio`. -/
theorem C26_bounded (t : List (K × K)) (survey f : Name) (delta q : Option K) (units : String) (pb : Passband K)
    (hp : Physical t) (hd : GoodStep delta) (h : Passband.init t survey f delta q units = .ok pb) (M : K) (flux : List K)
    (hM : 0 ≤ M) (hlen : flux.length = pb.waves.length) (hf : ∀ x ∈ flux, x ≤ M) :
    pb.integrate flux ≤ pb.integrate (flat pb M) ∧
    ((∀ d, delta = some d → Steps (fun g => d ≤ g) pb.waves) → pb.integrate flux ≤ M) := by
  have hb := init_built hp hd h
  have hle : pb.integrate flux ≤ pb.integrate (flat pb M) := by
    have hlin := C26_linear pb hb.waves 1 (-1) (flat pb M) flux (by simp [flat]) hlen
    have hnn := C26_nonneg t survey f delta q units pb hp hd h
      (List.zipWith (fun f g => 1 * f + -1 * g) (flat pb M) flux) (by
        intro x hx
        obtain ⟨i, hi, rfl⟩ := List.getElem_of_mem hx
        rw [List.getElem_zipWith]
        have := hf _ (List.getElem_mem (l := flux) (n := i) (by simp at hi; omega))
        simp only [flat, List.getElem_replicate]
        linarith)
    rw [hlin] at hnn
    linarith
  refine ⟨hle, fun hsteps => hle.trans ?_⟩
  cases hdw : delta with
  | none => rw [integrate_flat_none (hdw ▸ hb)]
  | some d =>
    have hb' : Built pb (some d) := hdw ▸ hb
    have hs := hsteps d hdw
    rw [integrate_flat_some hb']
    have hd0 := hd d hdw
    -- the largest step bounds the sum
    have : d * midSum (pb.table.map (·.2)) ≤ 1 := by
      rw [← hb'.area]
      obtain ⟨b, hb0, hbb⟩ := exists_bound d (npDiff pb.waves)
      have hst : Steps (fun g => d ≤ g ∧ g ≤ b) pb.waves := by
        unfold Steps at hs ⊢
        generalize pb.waves = l at hs hbb
        clear hle hb hb' hdw hlen
        induction l with
        | nil => simp
        | cons x l ih =>
          cases l with
          | nil => simp
          | cons y l =>
            rw [List.isChain_cons_cons] at hs ⊢
            exact ⟨⟨hs.1, hbb _ (by simp [npDiff])⟩, ih hs.2 (fun z hz => hbb z (by
              simp only [npDiff, List.mem_cons]; exact Or.inr hz))⟩
      exact (area_steps d b pb.table (fun p h => (hb'.nonneg p h).2) (by rw [← hb'.waves]; exact hst)).1
    nlinarith

/-- C26 is false when `delta_wave` does not divide the table's range: the table of transmission 1 at
wavelengths 1 and 4 with `delta_wave = 2` is put on one step of 3, and the flat spectrum of value 1
has bandflux 2/3. -/
theorem C26_flat_counterexample :
    ∃ pb : Passband ℚ, Passband.init [(1, 1), (4, 1)] [] [] (some 2) none "A" = .ok pb ∧
      pb.bandflux [flat pb 1] = .ok [2 / 3] := by
  have hfl : ⌊(3 : ℚ) / 2⌋ = 1 := by rw [Int.floor_eq_iff]; norm_num
  have hproc : Passband.process ([(1, 1), (4, 1)] : List (ℚ × ℚ)) (some 2) none =
      .ok [(1, 8 / 15), (4, 2 / 15)] := by
    have hint : Passband.interpolate ([(1, 1), (4, 1)] : List (ℚ × ℚ)) (some 2) = .ok [(1, 1), (4, 1)] := by
      unfold Passband.interpolate
      simp only [List.map_cons, List.map_nil, npDiff, isClose]
      norm_num [pyInt, linspace, interpAt, hfl, abs_of_pos]
      rw [show Int.toNat 2 = 2 from rfl]
      norm_num [List.range_succ]
    unfold Passband.process
    rw [hint]
    simp only [Passband.trim, Passband.normalize, trapezoid, trapCells]
    norm_num [trapCells]
  refine ⟨⟨['_'], [], [(1, 1), (4, 1)], [(1, 8 / 15), (4, 2 / 15)], [1, 4], some 2⟩, ?_, ?_⟩
  · unfold Passband.init
    simp only [Passband.validate, Passband.toAngstrom, npDiff, List.map_cons, List.map_nil]
    norm_num
    rw [if_neg (show ¬ ("A" = "nm") by decide)]
    simp only
    rw [hproc]
    simp
  · simp [Passband.bandflux, Passband.integrate, flat]
    norm_num

/-- A passband meeting the hypotheses of `C26_flat_partial` with a grid step. -/
example : ∃ pb : Passband ℚ, Passband.init [(1, 1), (2, 1), (3, 1)] [] [] (some 1) none "A" = .ok pb ∧
    Steps (fun g => g = 1) pb.waves := by
  have hproc : Passband.process ([(1, 1), (2, 1), (3, 1)] : List (ℚ × ℚ)) (some 1) none =
      .ok [(1, 6 / 7), (2, 3 / 7), (3, 2 / 7)] := by
    have hint : Passband.interpolate ([(1, 1), (2, 1), (3, 1)] : List (ℚ × ℚ)) (some 1) =
        .ok [(1, 1), (2, 1), (3, 1)] := by
      unfold Passband.interpolate
      simp only [List.map_cons, List.map_nil, npDiff, isClose]
      norm_num
    unfold Passband.process
    rw [hint]
    simp only [Passband.trim, Passband.normalize, trapezoid, trapCells]
    norm_num [trapCells]
  refine ⟨⟨['_'], [], [(1, 1), (2, 1), (3, 1)], [(1, 6 / 7), (2, 3 / 7), (3, 2 / 7)], [1, 2, 3], some 1⟩, ?_, ?_⟩
  · unfold Passband.init
    simp only [Passband.validate, Passband.toAngstrom, npDiff, List.map_cons, List.map_nil]
    norm_num
    rw [if_neg (show ¬ ("A" = "nm") by decide)]
    simp only
    rw [hproc]
    simp
  · unfold Steps
    norm_num

end LCL.PassbandProps
