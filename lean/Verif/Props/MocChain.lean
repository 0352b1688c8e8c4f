import Verif.Spec.MocChain
import Verif.Props.Samplers3
import Verif.Props.SkyTurn
import Mathlib.Geometry.Euclidean.Angle.Unoriented.TriangleInequality
import Mathlib.Analysis.InnerProductSpace.PiL2

/-!
# Property C139: positions sampled from a survey's coverage map
-/

namespace LCL.MocProps
open LCL LCL.MocChain LCL.MocSpec LCL.ObsSpec LCL.ObsTable LCL.ObsLemmas LCL.GraphSpec LCL.GraphLemmas LCL.SamplerSpec LCL.SamplerProps Real
variable {σ ρ : Type}

/-! ## Separations on the sky -/

/-- The direction of a position, as a unit vector. -/
noncomputable def vec (ra dec : ℝ) : EuclideanSpace ℝ (Fin 3) :=
  !₂[cos (dec * (π / 180)) * cos (ra * (π / 180)), cos (dec * (π / 180)) * sin (ra * (π / 180)), sin (dec * (π / 180))]

theorem vec_inner (a d a' d' : ℝ) : inner ℝ (vec a d) (vec a' d') = sin (d * (π / 180)) * sin (d' * (π / 180)) +
    cos (d * (π / 180)) * cos (d' * (π / 180)) * cos (a * (π / 180) - a' * (π / 180)) := by
  unfold vec
  rw [cos_sub]
  simp [PiLp.inner_apply, Fin.sum_univ_three]
  ring

theorem vec_norm (a d : ℝ) : ‖vec a d‖ = 1 := by
  have h := vec_inner a d a d
  rw [real_inner_self_eq_norm_sq, sub_self, cos_zero, mul_one] at h
  have h2 := sin_sq_add_cos_sq (d * (π / 180))
  have h3 : ‖vec a d‖ ^ 2 = 1 := by rw [h, ← h2]; ring
  have h0 := norm_nonneg (vec a d)
  nlinarith

theorem sep_angle (a d a' d' : ℝ) : sep a d a' d' = InnerProductGeometry.angle (vec a d) (vec a' d') := by
  unfold sep InnerProductGeometry.angle
  rw [vec_inner, vec_norm, vec_norm, mul_one, div_one]

theorem sep_triangle (a d a' d' a'' d'' : ℝ) : sep a d a'' d'' ≤ sep a d a' d' + sep a' d' a'' d'' := by
  rw [sep_angle, sep_angle, sep_angle]
  exact InnerProductGeometry.angle_le_angle_add_angle _ _ _

theorem sep_self (a d : ℝ) : sep a d a d = 0 := by
  unfold sep
  rw [sub_self, cos_zero, mul_one, ← sq, ← sq, sin_sq_add_cos_sq, arccos_one]

theorem row_pointing {t : ObsTable} {ras decs : List ℝ} (h1 : numCol t.cols "ra".toList = .ok ras) (h2 : numCol t.cols "dec".toList = .ok decs) {c : ℝ × ℝ} :
    c ∈ ras.zip decs ↔ ∃ i, Pointing t i c := by
  rw [numCol_ok] at h1 h2
  have e1 : ∀ i, num t "ra".toList i = ras[i]? := by
    intro i
    unfold num cell
    rw [h1, Option.bind_some, List.getElem?_map]
    cases ras[i]? <;> rfl
  have e2 : ∀ i, num t "dec".toList i = decs[i]? := by
    intro i
    unfold num cell
    rw [h2, Option.bind_some, List.getElem?_map]
    cases decs[i]? <;> rfl
  constructor
  · intro hc
    obtain ⟨i, hi⟩ := List.getElem?_of_mem hc
    rw [List.getElem?_zip_eq_some] at hi
    exact ⟨i, by rw [Pointing, e1, e2]; exact hi⟩
  · rintro ⟨i, hi⟩
    rw [Pointing, e1, e2] at hi
    exact List.mem_of_getElem? (i := i) (List.getElem?_zip_eq_some.2 hi)

/-- What a coverage map of a table is. -/
theorem build_spec {H : Healpix} {t : ObsTable} {radius : Option ℝ} {maxDepth : Nat} {m : Moc} (h : buildMoc H t radius maxDepth = .ok m) :
    ∃ r ras decs, RadiusOf t radius r ∧ numCol t.cols "ra".toList = .ok ras ∧ numCol t.cols "dec".toList = .ok decs ∧ maxDepth ≤ 29 ∧
      (∀ d ∈ decs, -90 ≤ d ∧ d ≤ 90) ∧ m = ⟨maxDepth, H.cones (ras.zip decs) r maxDepth⟩ := by
  unfold buildMoc at h
  split at h
  · cases h
  · rename_i r hr
    cases h1 : numCol t.cols "ra".toList with
    | error e => rw [h1] at h; cases h
    | ok ras =>
      cases h2 : numCol t.cols "dec".toList with
      | error e => rw [h1, h2] at h; cases h
      | ok decs =>
        rw [h1, h2] at h
        dsimp only at h
        split at h
        · cases h
        · rename_i hd
          split at h
          · cases h
          · rename_i hm
            cases h
            refine ⟨r, ras, decs, ?_, rfl, rfl, by omega, ?_, rfl⟩
            · cases radius with
              | some x => exact Or.inl hr
              | none => exact Or.inr ⟨rfl, hr⟩
            · intro d hdm
              simp only [List.any_eq_true, Bool.or_eq_true, decide_eq_true_eq, not_exists, not_and, not_or, not_lt] at hd
              exact hd d hdm

theorem new_spec {m : Moc} {depth : Int} {smp : Nat × List Nat} (h : newSampler m depth = .ok smp) :
    2 ≤ depth ∧ depth ≤ 29 ∧ smp = (depth.toNat, (m.toOrder depth.toNat).pixels) := by
  unfold newSampler MocSampler.init at h
  split at h
  · cases h
  · cases h; exact ⟨by omega, by omega, rfl⟩

theorem pixelAt_div (H : Healpix) {d e : Nat} (hde : d ≤ e) (he : e ≤ 29) (q : ℝ × ℝ) : pixelAt H e q / 4 ^ (e - d) = pixelAt H d q := by
  unfold pixelAt
  rw [Nat.div_div_eq_div_mul, ← pow_add]
  congr 2
  omega

theorem pixelAt_lt {H : Healpix} {size slack : Nat → ℝ} (hC : Contract H size slack) {d : Nat} (hd : d ≤ 29) (q : ℝ × ℝ) : pixelAt H d q < 12 * 4 ^ d := by
  unfold pixelAt
  rw [Nat.div_lt_iff_lt_mul (by positivity), Nat.mul_assoc, ← pow_add, Nat.add_sub_cancel' hd]
  exact hC.pixel_lt q

theorem toOrder_mem (m : Moc) (d x : Nat) : x ∈ (m.toOrder d).pixels ↔
    (d ≤ m.order ∧ ∃ p ∈ m.pixels, p / 4 ^ (m.order - d) = x) ∨ (m.order < d ∧ x / 4 ^ (d - m.order) ∈ m.pixels) := by
  unfold Moc.toOrder
  dsimp only
  split
  · rename_i h
    simp only [List.mem_dedup, List.mem_map]
    constructor
    · rintro ⟨p, hp, rfl⟩; exact Or.inl ⟨h, p, hp, rfl⟩
    · rintro (⟨_, p, hp, rfl⟩ | ⟨h', _⟩)
      · exact ⟨p, hp, rfl⟩
      · omega
  · rename_i h
    have hpos : 0 < 4 ^ (d - m.order) := by positivity
    simp only [List.mem_flatMap, List.mem_map, List.mem_range]
    constructor
    · rintro ⟨p, hp, j, hj, rfl⟩
      refine Or.inr ⟨by omega, ?_⟩
      rwa [Nat.mul_comm, Nat.mul_add_div hpos, Nat.div_eq_of_lt hj, Nat.add_zero]
    · rintro (⟨h', _⟩ | ⟨_, hp⟩)
      · exact absurd h' h
      · exact ⟨_, hp, x % 4 ^ (d - m.order), Nat.mod_lt _ hpos, by rw [Nat.mul_comm]; exact Nat.div_add_mod _ _⟩

theorem toOrder_nodup (m : Moc) (hm : m.pixels.Nodup) (d : Nat) : (m.toOrder d).pixels.Nodup := by
  unfold Moc.toOrder
  dsimp only
  split
  · exact List.nodup_dedup _
  · have hpos : 0 < 4 ^ (d - m.order) := by positivity
    rw [List.nodup_flatMap]
    constructor
    · intro p _
      refine List.Nodup.map ?_ List.nodup_range
      intro a b hab
      have : p * 4 ^ (d - m.order) + a = p * 4 ^ (d - m.order) + b := hab
      omega
    · refine List.Pairwise.imp ?_ hm
      intro a b hab
      show List.Disjoint _ _
      intro x hx hy
      simp only [List.mem_map, List.mem_range] at hx hy
      obtain ⟨j, hj, rfl⟩ := hx
      obtain ⟨k, hk, he⟩ := hy
      apply hab
      have e1 : (a * 4 ^ (d - m.order) + j) / 4 ^ (d - m.order) = a := by rw [Nat.mul_comm, Nat.mul_add_div hpos, Nat.div_eq_of_lt hj, Nat.add_zero]
      have e2 : (b * 4 ^ (d - m.order) + k) / 4 ^ (d - m.order) = b := by rw [Nat.mul_comm, Nat.mul_add_div hpos, Nat.div_eq_of_lt hk, Nat.add_zero]
      rw [← e1, ← e2, he]

/-- The pixels of a map, at any order, are pixels near a disc. -/
theorem toOrder_near {H : Healpix} {size slack : Nat → ℝ} (hC : Contract H size slack) {cs : List (ℝ × ℝ)} {r : ℝ} (hr : 0 ≤ r) {e d : Nat} (he : e ≤ 29) (hd : d ≤ 29)
    {q : ℝ × ℝ} (h : pixelAt H d q ∈ ((⟨e, H.cones cs r e⟩ : Moc).toOrder d).pixels) :
    ∃ c ∈ cs, sep q.1 q.2 c.1 c.2 ≤ r * (π / 180) + slack e + size (min e d) := by
  rw [toOrder_mem] at h
  rcases h with ⟨hle, p, hp, hx⟩ | ⟨hlt, hp⟩
  · obtain ⟨c, hc, q', h1, h2⟩ := hC.near _ _ _ hr he p hp
    refine ⟨c, hc, ?_⟩
    have h3 : pixelAt H d q = pixelAt H d q' := by rw [← hx, ← h1]; exact pixelAt_div H hle he q'
    have h4 := hC.close d hd q q' h3
    have h5 := sep_triangle q.1 q.2 q'.1 q'.2 c.1 c.2
    rw [Nat.min_eq_right hle]
    linarith
  · rw [pixelAt_div H hlt.le hd] at hp
    obtain ⟨c, hc, q', h1, h2⟩ := hC.near _ _ _ hr he _ hp
    refine ⟨c, hc, ?_⟩
    have h4 := hC.close e he q q' h1.symm
    have h5 := sep_triangle q.1 q.2 q'.1 q'.2 c.1 c.2
    rw [Nat.min_eq_left hlt.le]
    linarith

theorem toOrder_lt {H : Healpix} {size slack : Nat → ℝ} (hC : Contract H size slack) {cs : List (ℝ × ℝ)} {r : ℝ} (hr : 0 ≤ r) {e d : Nat} (he : e ≤ 29) (hd : d ≤ 29)
    {x : Nat} (h : x ∈ ((⟨e, H.cones cs r e⟩ : Moc).toOrder d).pixels) : x < 12 * 4 ^ d := by
  rw [toOrder_mem] at h
  rcases h with ⟨hle, p, hp, rfl⟩ | ⟨hlt, hp⟩
  · obtain ⟨c, hc, q', rfl, h2⟩ := hC.near _ _ _ hr he p hp
    rw [pixelAt_div H hle he]
    exact pixelAt_lt hC hd q'
  · obtain ⟨c, hc, q', h1, h2⟩ := hC.near _ _ _ hr he _ hp
    have h3 := pixelAt_lt hC he q'
    rw [h1, Nat.div_lt_iff_lt_mul (by positivity), Nat.mul_assoc, ← pow_add] at h3
    have hlt : e < d := hlt
    rwa [show e + (d - e) = d by omega] at h3

/-- The pixels of a map contain every point of a disc. -/
theorem toOrder_covers {H : Healpix} {size slack : Nat → ℝ} (hC : Contract H size slack) {cs : List (ℝ × ℝ)} {r : ℝ} (hr : 0 ≤ r) {e d : Nat} (he : e ≤ 29) (hd : d ≤ 29)
    {q c : ℝ × ℝ} (hc : c ∈ cs) (h : sep q.1 q.2 c.1 c.2 ≤ r * (π / 180)) : pixelAt H d q ∈ ((⟨e, H.cones cs r e⟩ : Moc).toOrder d).pixels := by
  have hp := hC.covers cs r e hr he c hc q h
  rw [toOrder_mem]
  rcases Nat.lt_or_ge e d with hlt | hle
  · exact Or.inr ⟨hlt, by rw [pixelAt_div H hlt.le hd]; exact hp⟩
  · exact Or.inl ⟨hle, _, hp, pixelAt_div H hle he q⟩

/-- C139: every position sampled from the coverage map of a table lies close to a pointing of the table: within the radius, plus the inaccuracy of the map, plus the size of a pixel
of the coarser of the two orders. Values are stored under `ra` and `dec` unless these are fixed. -/
theorem C139_near {H : Healpix} {size slack : Nat → ℝ} (hC : Contract H size slack) {t : ObsTable} {radius : Option ℝ} {maxDepth : Nat} {m : Moc}
    (hm : buildMoc H t radius maxDepth = .ok m) {depth : Int} {smp : Nat × List Nat} (hs : newSampler m depth = .ok smp) (hr : ∀ r, RadiusOf t radius r → 0 ≤ r)
    (G : IntGen ρ) (nd : PNode ℝ σ) (hd : '.' ∉ nd.str) (s : GState ℝ) (hR : Reachable s) (g : ρ) (hrows : ∃ i c, Pointing t i c) :
    ∃ g' s' ra dec r, compute H G smp nd g s = (g', s', .ok (ra, dec)) ∧ RadiusOf t radius r ∧
      (∀ k, k < s.numSamples → ∃ x y, sampleAt s.numSamples ra k = some (.scalar x) ∧ sampleAt s.numSamples dec k = some (.scalar y) ∧
        ∃ i c, Pointing t i c ∧ sep x y c.1 c.2 ≤ r * (π / 180) + slack maxDepth + size (min maxDepth depth.toNat)) ∧
      (isFixed s nd.str "ra".toList ∨ readParam s' nd.str "ra".toList = some ra) ∧
      (isFixed s nd.str "dec".toList ∨ readParam s' nd.str "dec".toList = some dec) := by
  obtain ⟨r, ras, decs, h1, h2, h3, h4, h5, rfl⟩ := build_spec hm
  obtain ⟨d2, d29, rfl⟩ := new_spec hs
  have h0 := hr r h1
  have hdn : depth.toNat ≤ 29 := by omega
  have hlt : ∀ p ∈ ((⟨maxDepth, H.cones (ras.zip decs) r maxDepth⟩ : Moc).toOrder depth.toNat).pixels, p < 12 * 4 ^ depth.toNat := fun p hp => toOrder_lt hC h0 h4 hdn hp
  obtain ⟨i₀, c₀, hp₀⟩ := hrows
  have hc₀ : c₀ ∈ ras.zip decs := (row_pointing h2 h3).2 ⟨i₀, hp₀⟩
  have hne : ((⟨maxDepth, H.cones (ras.zip decs) r maxDepth⟩ : Moc).toOrder depth.toNat).pixels ≠ [] := by
    have := toOrder_covers hC h0 h4 hdn hc₀ (q := c₀) (by rw [sep_self]; positivity)
    exact List.ne_nil_of_mem this
  obtain ⟨g', qs, e1, e2, e3⟩ := SkyProps.C23_inside G depth _ _ _ hs hlt hne g s.numSamples
  have l1 : (qs.map fun q => (.scalar (H.center q).1 : Val ℝ)).length = s.numSamples := by rw [List.length_map, e2]
  have l2 : (qs.map fun q => (.scalar (H.center q).2 : Val ℝ)).length = s.numSamples := by rw [List.length_map, e2]
  obtain ⟨s', k1, k2, k3⟩ := SkyProps.save_radec nd hd s hR _ _ (packed_fits l1) (packed_fits l2)
  refine ⟨g', s', _, _, r, ?_, h1, ?_, k2, k3⟩
  · unfold compute
    rw [e1]
    simp only [k1]
  · intro k hk
    have hk' : k < qs.length := by rw [e2]; exact hk
    refine ⟨(H.center qs[k]).1, (H.center qs[k]).2, ?_, ?_, ?_⟩
    · unfold sampleAt
      rw [packed_rows l1, List.getElem?_map, List.getElem?_eq_getElem hk']; rfl
    · unfold sampleAt
      rw [packed_rows l2, List.getElem?_map, List.getElem?_eq_getElem hk']; rfl
    · obtain ⟨hq, p, hp, hdsc⟩ := e3 qs[k] (List.getElem_mem hk')
      have hpix : pixelAt H depth.toNat (H.center qs[k]) = p := by
        unfold pixelAt
        rw [hC.center _ hq]
        exact hdsc
      obtain ⟨c, hc, hsep⟩ := toOrder_near hC h0 h4 hdn (q := H.center qs[k]) (by rw [hpix]; exact hp)
      obtain ⟨i, hi⟩ := (row_pointing h2 h3).1 hc
      exact ⟨i, c, hi, hsep⟩

/-- C139: nothing the survey sees is left out, and nothing is preferred: for every position within the radius of a pointing there is exactly one outcome of the two draws (the number
of a pixel of the map, and an offset) that gives the finest pixel of that position, whose centre is at most the size of the finest pixel away. -/
theorem C139_reaches {H : Healpix} {size slack : Nat → ℝ} (hC : Contract H size slack) {t : ObsTable} {radius : Option ℝ} {maxDepth : Nat} {m : Moc}
    (hm : buildMoc H t radius maxDepth = .ok m) {depth : Int} {smp : Nat × List Nat} (hs : newSampler m depth = .ok smp) {r : ℝ} (hr : RadiusOf t radius r) (h0 : 0 ≤ r)
    {i : Nat} {c q : ℝ × ℝ} (hi : Pointing t i c) (hq : sep q.1 q.2 c.1 c.2 ≤ r * (π / 180)) :
    (∃! o : Nat × Nat, o.1 < smp.2.length ∧ o.2 < mocRange smp.1 ∧ moc29 smp.1 (smp.2.getD o.1 0) o.2 = H.pixel q) ∧
    sep (H.center (H.pixel q)).1 (H.center (H.pixel q)).2 q.1 q.2 ≤ size 29 := by
  obtain ⟨r', ras, decs, h1, h2, h3, h4, h5, rfl⟩ := build_spec hm
  obtain ⟨d2, d29, rfl⟩ := new_spec hs
  have hrr : r' = r := by
    rcases h1 with h1 | ⟨h1, h1'⟩ <;> rcases hr with hr | ⟨hr, hr'⟩
    · rw [h1] at hr; exact Option.some.inj hr
    · rw [h1] at hr; cases hr
    · rw [h1] at hr; cases hr
    · rw [h1'] at hr'; exact Option.some.inj hr'
  subst hrr
  have hdn : depth.toNat ≤ 29 := by omega
  have hc : c ∈ ras.zip decs := (row_pointing h2 h3).2 ⟨i, hi⟩
  have hmem := toOrder_covers hC h0 h4 hdn hc hq
  have hlt : ∀ p ∈ ((⟨maxDepth, H.cones (ras.zip decs) r' maxDepth⟩ : Moc).toOrder depth.toNat).pixels, p < 12 * 4 ^ depth.toNat := fun p hp => toOrder_lt hC h0 h4 hdn hp
  have hnd := toOrder_nodup (⟨maxDepth, H.cones (ras.zip decs) r' maxDepth⟩ : Moc) (hC.nodup _ _ _) depth.toNat
  dsimp only
  generalize ((⟨maxDepth, H.cones (ras.zip decs) r' maxDepth⟩ : Moc).toOrder depth.toNat).pixels = ps at hmem hlt hnd
  constructor
  · obtain ⟨k, o, k1, k2, k3⟩ := SkyProps.C23_onto depth.toNat hdn ps hlt _ (H.pixel q) hmem rfl
    refine ⟨(k, o), ⟨k1, k2, k3⟩, ?_⟩
    rintro ⟨k', o'⟩ ⟨j1, j2, j3⟩
    dsimp only at j1 j2 j3
    have g : ∀ {n : Nat} (h : n < ps.length), ps.getD n 0 = ps[n] := by
      intro n h; rw [List.getD_eq_getElem?_getD, List.getElem?_eq_getElem h]; rfl
    rw [SkyProps.moc_range] at k2 j2
    rw [g k1, SkyProps.moc29_eq hdn (hlt _ (List.getElem_mem _)) k2] at k3
    rw [g j1, SkyProps.moc29_eq hdn (hlt _ (List.getElem_mem _)) j2] at j3
    have hpos : 0 < 4 ^ (29 - depth.toNat) := by positivity
    have e1 : ps[k'] = ps[k] := by
      have a1 : H.pixel q / 4 ^ (29 - depth.toNat) = ps[k] := by rw [← k3, Nat.mul_comm, Nat.mul_add_div hpos, Nat.div_eq_of_lt k2, Nat.add_zero]
      have a2 : H.pixel q / 4 ^ (29 - depth.toNat) = ps[k'] := by rw [← j3, Nat.mul_comm, Nat.mul_add_div hpos, Nat.div_eq_of_lt j2, Nat.add_zero]
      rw [← a1, ← a2]
    have e2 : k' = k := (List.Nodup.getElem_inj_iff hnd).1 e1
    have e3 : o' = o := by rw [e1] at j3; omega
    rw [e2, e3]
  · apply hC.close 29 (le_refl _)
    unfold pixelAt
    rw [hC.center _ (hC.pixel_lt q)]

theorem observed_of_near {size slack : Nat → ℝ} {t : ObsTable} (hb : Built t) (hfp : t.footprint = none) {r R x y : ℝ} {e d : Nat}
    {i : Nat} {c : ℝ × ℝ} (hi : Pointing t i c) (hsep : sep x y c.1 c.2 ≤ r * (π / 180) + slack e + size (min e d))
    (hR : r * (π / 180) + slack e + size (min e d) ≤ R * (π / 180)) (h0 : 0 ≤ R) (h180 : R ≤ 180) {out : SeenOut}
    (h : t.isObserved (.scalar x) (.scalar y) (some R) .none .none = .ok out) : out = .one true := by
  obtain ⟨qs, v1, v2, hq⟩ := RangeSearchProps.C37_is_observed hb (ra := .scalar x) (dec := .scalar y) h0 h180 rfl h
  rcases hq with ⟨_, b, rfl, hb'⟩ | ⟨hf, _⟩
  · have e1 : [some x] = qs.map fun q => some q.1 := v1
    have e2 : [some y] = qs.map fun q => some q.2 := v2
    match qs, e1, e2, hb' with
    | [q], e1, e2, hb' =>
      have x1 : x = q.1 := by simpa using e1
      have x2 : y = q.2 := by simpa using e2
      have := (hb' q rfl).2 ⟨i, c.1, c.2, hi.1, hi.2, by rw [← x1, ← x2]; linarith, (fun b h => by cases h), (fun b h => by cases h), (fun fp h => by rw [hfp] at h; cases h)⟩
      rw [this]
  · cases hf

/-- C139: the survey itself confirms it: asked with a radius enlarged by the inaccuracy of the map, a survey without a footprint says that a sampled position is observed. -/
theorem C139_observed {H : Healpix} {size slack : Nat → ℝ} (hC : Contract H size slack) {t : ObsTable} (hb : Built t) (hfp : t.footprint = none) {radius : Option ℝ} {maxDepth : Nat}
    {m : Moc} (hm : buildMoc H t radius maxDepth = .ok m) {depth : Int} {smp : Nat × List Nat} (hs : newSampler m depth = .ok smp) {r : ℝ} (hr : RadiusOf t radius r) (h0 : 0 ≤ r)
    (G : IntGen ρ) (nd : PNode ℝ σ) (hd : '.' ∉ nd.str) (s : GState ℝ) (hR : Reachable s) (g : ρ) (hrows : ∃ i c, Pointing t i c) {R : ℝ} (hle : R ≤ 180) (hpos : 0 ≤ R)
    (hbig : r * (π / 180) + slack maxDepth + size (min maxDepth depth.toNat) ≤ R * (π / 180)) :
    ∃ g' s' ra dec, compute H G smp nd g s = (g', s', .ok (ra, dec)) ∧ ∀ k, k < s.numSamples → ∃ x y, sampleAt s.numSamples ra k = some (.scalar x) ∧
      sampleAt s.numSamples dec k = some (.scalar y) ∧
      ∀ out, t.isObserved (.scalar x) (.scalar y) (some R) .none .none = .ok out → out = .one true := by
  have hu : ∀ r', RadiusOf t radius r' → r' = r := by
    intro r' h1
    rcases h1 with h1 | ⟨h1, h1'⟩ <;> rcases hr with hr | ⟨hr, hr'⟩
    · rw [h1] at hr; exact Option.some.inj hr
    · rw [h1] at hr; cases hr
    · rw [h1] at hr; cases hr
    · rw [h1'] at hr'; exact Option.some.inj hr'
  obtain ⟨g', s', ra, dec, r', h1, h2, h3, _⟩ := C139_near hC hm hs (fun r' h => by rw [hu r' h]; exact h0) G nd hd s hR g hrows
  have := hu r' h2
  subst this
  refine ⟨g', s', ra, dec, h1, fun k hk => ?_⟩
  obtain ⟨x, y, a1, a2, i, c, a3, a4⟩ := h3 k hk
  exact ⟨x, y, a1, a2, fun out ho => observed_of_near hb hfp a3 a4 hbig hpos hle ho⟩

/-- C139: what is refused: a table without a radius when none is given, declinations that do not exist, orders that do not exist, a missing file; a map read from a file is used like the map itself;
without a radius given, the table's radius is used. -/
theorem C139_refused (H : Healpix) (t : ObsTable) (radius : Option ℝ) (maxDepth : Nat) (m : Moc) (depth : Int) :
    (radius = none → t.radius = none → buildMoc H t radius maxDepth = .error .valueError) ∧
    (∀ i d, num t "dec".toList i = some d → d < -90 ∨ 90 < d → ∀ m, buildMoc H t radius maxDepth ≠ .ok m) ∧
    (29 < maxDepth → ∀ m, buildMoc H t radius maxDepth ≠ .ok m) ∧
    ((depth < 2 ∨ 29 < depth) → newSampler m depth = .error .valueError) ∧
    (2 ≤ depth → depth ≤ 29 → ∃ smp, newSampler m depth = .ok smp) ∧
    fromFile none depth = .error .fileNotFound ∧ fromFile (some m) depth = newSampler m depth ∧
    (∀ r, t.radius = some r → buildMoc H t none maxDepth = buildMoc H t (some r) maxDepth) := by
  refine ⟨?_, ?_, ?_, ?_, ?_, rfl, rfl, ?_⟩
  · rintro rfl h; unfold buildMoc; simp only [h]
  · intro i d hi hd m hm
    obtain ⟨r, ras, decs, h1, h2, h3, h4, h5, _⟩ := build_spec hm
    rw [numCol_ok] at h3
    have e : num t "dec".toList i = decs[i]? := by
      unfold num cell
      rw [h3, Option.bind_some, List.getElem?_map]
      cases decs[i]? <;> rfl
    rw [e] at hi
    have := h5 d (List.mem_of_getElem? hi)
    rcases hd with hd | hd <;> linarith [this.1, this.2]
  · intro h m hm
    obtain ⟨r, ras, decs, h1, h2, h3, h4, h5, _⟩ := build_spec hm
    omega
  · intro h
    unfold newSampler MocSampler.init
    rw [if_pos (by omega)]
  · intro h1 h2
    unfold newSampler MocSampler.init
    rw [if_neg (by omega)]
    exact ⟨_, rfl⟩
  · intro r hr
    unfold buildMoc
    simp only [hr]

/-- C139: a table whose columns hold numbers has a map. -/
theorem C139_succeeds (H : Healpix) {t : ObsTable} {radius : Option ℝ} {r : ℝ} (hr : RadiusOf t radius r) {ras decs : List ℝ} (h1 : t.cols.get? "ra".toList = some (ras.map .num))
    (h2 : t.cols.get? "dec".toList = some (decs.map .num)) (h3 : ∀ d ∈ decs, -90 ≤ d ∧ d ≤ 90) {maxDepth : Nat} (h4 : maxDepth ≤ 29) : ∃ m, buildMoc H t radius maxDepth = .ok m := by
  have key : ∃ m, buildMoc H t (some r) maxDepth = .ok m := by
    unfold buildMoc
    simp only [numCol_ok.2 h1, numCol_ok.2 h2]
    rw [if_neg, if_neg (by omega)]
    · exact ⟨_, rfl⟩
    · simp only [List.any_eq_true, Bool.or_eq_true, decide_eq_true_eq, not_exists, not_and, not_or, not_lt]
      exact fun d hd => h3 d hd
  rcases hr with rfl | ⟨rfl, h⟩
  · exact key
  · rw [(C139_refused H t none maxDepth ⟨0, []⟩ 2).2.2.2.2.2.2.2 r h]
    exact key

/-! ## The hypotheses can be met -/

/-- A toy pixelisation: slices in right ascension. -/
noncomputable def slices : Healpix where
  pixel q := ⌊Int.fract (q.1 / 360) * (12 * 4 ^ 29 : ℕ)⌋₊
  center p := ((p + 1 / 2) / (12 * 4 ^ 29 : ℕ) * 360, 0)
  cones cs r d := open Classical in (List.range (12 * 4 ^ d)).filter fun p =>
    decide (∃ c ∈ cs, ∃ q : ℝ × ℝ, ⌊Int.fract (q.1 / 360) * (12 * 4 ^ 29 : ℕ)⌋₊ / 4 ^ (29 - d) = p ∧ sep q.1 q.2 c.1 c.2 ≤ r * (π / 180))

/-- The contract holds of it. -/
theorem slices_contract : Contract slices (fun _ => π) (fun _ => 0) := by
  have hN : (0 : ℝ) < (12 * 4 ^ 29 : ℕ) := by positivity
  have hlt : ∀ q, slices.pixel q < 12 * 4 ^ 29 := by
    intro q
    show ⌊Int.fract (q.1 / 360) * (12 * 4 ^ 29 : ℕ)⌋₊ < 12 * 4 ^ 29
    rw [Nat.floor_lt (mul_nonneg (Int.fract_nonneg _) hN.le)]
    exact mul_lt_of_lt_one_left hN (Int.fract_lt_one _)
  have hlt' : ∀ d, d ≤ 29 → ∀ q, pixelAt slices d q < 12 * 4 ^ d := by
    intro d hd q
    unfold pixelAt
    rw [Nat.div_lt_iff_lt_mul (by positivity), Nat.mul_assoc, ← pow_add, Nat.add_sub_cancel' hd]
    exact hlt q
  refine ⟨hlt, ?_, ?_, ?_, ?_, ?_⟩
  · intro p hp
    show ⌊Int.fract ((((p : ℝ) + 1 / 2) / (12 * 4 ^ 29 : ℕ) * 360) / 360) * (12 * 4 ^ 29 : ℕ)⌋₊ = p
    have hp' : (p : ℝ) + 1 ≤ (12 * 4 ^ 29 : ℕ) := by exact_mod_cast hp
    have e : (((p : ℝ) + 1 / 2) / (12 * 4 ^ 29 : ℕ) * 360) / 360 = ((p : ℝ) + 1 / 2) / (12 * 4 ^ 29 : ℕ) := by ring
    rw [e, Int.fract_eq_self.2 ⟨by positivity, by rw [div_lt_one hN]; exact lt_of_lt_of_le (by linarith) hp'⟩, div_mul_cancel₀ _ hN.ne', Nat.floor_eq_iff (by positivity)]
    constructor <;> linarith
  · intro d _ q q' _; exact arccos_le_pi _
  · intro cs r d _ hd c hc q h
    show pixelAt slices d q ∈ List.filter _ _
    rw [List.mem_filter]
    refine ⟨List.mem_range.2 (hlt' d hd q), ?_⟩
    simp only [decide_eq_true_eq]
    exact ⟨c, hc, q, rfl, h⟩
  · intro cs r d; exact List.Nodup.filter _ List.nodup_range
  · intro cs r d _ _ p hp
    have hp : p ∈ List.filter _ _ := hp
    rw [List.mem_filter] at hp
    obtain ⟨_, hp⟩ := hp
    simp only [decide_eq_true_eq] at hp
    obtain ⟨c, hc, q, h1, h2⟩ := hp
    exact ⟨c, hc, q, h1, by linarith⟩

/-- A table of one pointing, its map and a sampler of it. -/
example : ∃ m smp, buildMoc slices (SkyTurnProps.visitTable 10) (some 1) 10 = .ok m ∧ newSampler m 12 = .ok smp ∧ ∃ i c, Pointing (SkyTurnProps.visitTable 10) i c := by
  obtain ⟨m, hm⟩ := C139_succeeds slices (t := SkyTurnProps.visitTable 10) (radius := some 1) (Or.inl rfl) (ras := [10]) (decs := [0]) (by rfl) (by rfl)
    (by intro d hd; simp only [List.mem_singleton] at hd; subst hd; norm_num) (show 10 ≤ 29 by norm_num)
  obtain ⟨smp, hs⟩ := (C139_refused slices (SkyTurnProps.visitTable 10) none 10 m 12).2.2.2.2.1 (by norm_num) (by norm_num)
  exact ⟨m, smp, hm, hs, 0, (10, 0), rfl, rfl⟩

end LCL.MocProps
