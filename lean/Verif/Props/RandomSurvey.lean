import Verif.Model.RandomSurvey
import Verif.Props.SurveyZp
import Verif.Props.Samplers3

/-!
# C104: random surveys
-/

namespace LCL.RandomSurveyProps
open LCL RandomSurvey ObsTable PhotSpec Real

variable {ρ : Type}

/-! ## Positions -/

theorem raOf_eq (u : ℝ) : raOf u = 360 * u := by
  unfold raOf between degrees
  field_simp
  ring

theorem decOf_eq (v : ℝ) : decOf v = -uniformDec true v := by
  rw [SkyProps.dec_eq]
  unfold decOf between degrees
  rw [show 2 * (0 + (1 - 0) * v) - 1 = 2 * v - 1 by ring, arcsin_eq_pi_div_two_sub_arccos]
  ring

/-- A position on the sky made from two draws: the right ascension is proportional to the first, the sine of the declination to the second, so that
equal areas are equally probable. -/
structure OnSky (ra dec u v : ℝ) : Prop where
  ra_eq : ra = 360 * u
  ra_range : 0 ≤ ra ∧ ra < 360
  dec_range : -90 ≤ dec ∧ dec ≤ 90
  sin_dec : sin (dec * (π / 180)) = 1 - 2 * v

theorem onSky {u v : ℝ} (hu : 0 ≤ u ∧ u < 1) (hv : 0 ≤ v ∧ v < 1) : OnSky (raOf u) (decOf v) u v := by
  obtain ⟨_, h2, h3, _⟩ := SkyProps.C24_range_and_law u v hu hv
  refine ⟨raOf_eq u, ?_, ?_, ?_⟩
  · rw [raOf_eq]; constructor <;> linarith [hu.1, hu.2]
  · rw [decOf_eq]; constructor <;> linarith [h2.1, h2.2]
  · rw [decOf_eq, neg_mul, sin_neg, h3]; ring

/-- **C104.** The declination is below `δ` exactly for draws above `(1 - sin δ) / 2`: the share of the sky below `δ`. -/
theorem C104_law {v : ℝ} (hv : 0 ≤ v ∧ v < 1) (δ : ℝ) (h1 : -90 ≤ δ) (h2 : δ ≤ 90) :
    decOf v ≤ δ ↔ (1 - sin (δ * (π / 180))) / 2 ≤ v := by
  obtain ⟨_, _, _, h⟩ := SkyProps.C24_range_and_law 0 v ⟨le_refl _, by norm_num⟩ hv
  have := h (-δ) (by linarith) (by linarith)
  rw [neg_mul, sin_neg] at this
  rw [decOf_eq]
  constructor
  · intro hd
    by_contra hc
    have := this.2 (by linarith [not_le.1 hc])
    linarith
  · intro hd
    by_contra hc
    have := this.1 (by linarith [not_le.1 hc])
    linarith

/-! ## `OpSim` -/

/-- The original names of the standard columns, as `OpSim` keeps them. -/
def swapped (m : Dict Name Name) : Dict Name Name := m.map fun q => (q.2, q.1)

theorem opsim_remap : remap ["observationStartMJD".toList, "fieldRA".toList, "fieldDec".toList, "airmass".toList, "filter".toList,
    "visitExposureTime".toList] opsimClass.colmap [] [] =
    .ok ([("airmass".toList, "airmass".toList), ("fieldDec".toList, "dec".toList), ("visitExposureTime".toList, "exptime".toList),
      ("filter".toList, "filter".toList), ("fieldRA".toList, "ra".toList), ("observationStartMJD".toList, "time".toList)],
      swapped opsimClass.colmap) := by
  rfl

theorem mapM_str (l : List Name) : (l.map Cell.str).mapM Cell.str? = .ok l := by
  induction l with
  | nil => rfl
  | cons x l ih => rw [List.map_cons, List.mapM_cons, ih]; rfl

/-- The table `OpSim` makes of these columns. -/
noncomputable def opsimTable (ts ras decs ams : List ℝ) (bands : List Name) (es zps : List ℝ) (labels : List Int) : ObsTable :=
  ⟨[("time".toList, ts.map Cell.num), ("ra".toList, ras.map Cell.num), ("dec".toList, decs.map Cell.num), ("airmass".toList, ams.map Cell.num),
    ("filter".toList, bands.map Cell.str), ("exptime".toList, es.map Cell.num), ("zp".toList, zps.map Cell.num)], labels,
    swapped opsimClass.colmap, opsimClass.defaults, npUnique bands, List.zipWith toCart ras decs, none⟩

theorem opsim_construct (ts ras decs ams es : List ℝ) (bands : List Name) (labels : List Int) (zps : List ℝ)
    (hz : fluxZeropoint lsstZp lsstExt bands ams es = .ok zps) (hl : zps.length = labels.length) :
    construct opsimClass ⟨[("observationStartMJD".toList, ts.map Cell.num), ("fieldRA".toList, ras.map Cell.num),
        ("fieldDec".toList, decs.map Cell.num), ("airmass".toList, ams.map Cell.num), ("filter".toList, bands.map Cell.str),
        ("visitExposureTime".toList, es.map Cell.num)], labels, none⟩ none [] none =
      .ok (opsimTable ts ras decs ams bands es zps labels) := by
  unfold construct ObsTable.init
  have hk : Dict.keys (⟨[("observationStartMJD".toList, ts.map Cell.num), ("fieldRA".toList, ras.map Cell.num),
        ("fieldDec".toList, decs.map Cell.num), ("airmass".toList, ams.map Cell.num), ("filter".toList, bands.map Cell.str),
        ("visitExposureTime".toList, es.map Cell.num)], labels, none⟩ : Frame).cols = ["observationStartMJD".toList, "fieldRA".toList,
        "fieldDec".toList, "airmass".toList, "filter".toList, "visitExposureTime".toList] := rfl
  have hc : chosenMap opsimClass none = opsimClass.colmap := rfl
  rw [hk, hc, opsim_remap]
  dsimp only
  have hr : rename [("airmass".toList, "airmass".toList), ("fieldDec".toList, "dec".toList), ("visitExposureTime".toList, "exptime".toList),
      ("filter".toList, "filter".toList), ("fieldRA".toList, "ra".toList), ("observationStartMJD".toList, "time".toList)]
      [("observationStartMJD".toList, ts.map Cell.num), ("fieldRA".toList, ras.map Cell.num),
        ("fieldDec".toList, decs.map Cell.num), ("airmass".toList, ams.map Cell.num), ("filter".toList, bands.map Cell.str),
        ("visitExposureTime".toList, es.map Cell.num)] =
      [("time".toList, ts.map Cell.num), ("ra".toList, ras.map Cell.num), ("dec".toList, decs.map Cell.num), ("airmass".toList, ams.map Cell.num),
    ("filter".toList, bands.map Cell.str), ("exptime".toList, es.map Cell.num)] := rfl
  rw [hr]
  generalize hcols : ([("time".toList, ts.map Cell.num), ("ra".toList, ras.map Cell.num), ("dec".toList, decs.map Cell.num), ("airmass".toList, ams.map Cell.num),
    ("filter".toList, bands.map Cell.str), ("exptime".toList, es.map Cell.num)] : Dict Name (List Cell)) = cols
  have g1 : Dict.get? cols "filter".toList = some (bands.map Cell.str) := by rw [← hcols]; rfl
  have g2 : Dict.get? cols "airmass".toList = some (ams.map Cell.num) := by rw [← hcols]; rfl
  have g3 : Dict.get? cols "exptime".toList = some (es.map Cell.num) := by rw [← hcols]; rfl
  have g4 : ["ra".toList, "dec".toList, "time".toList].all (fun c => Dict.has cols c) = true := by rw [← hcols]; rfl
  have g5 : ["filter".toList, "airmass".toList, "exptime".toList].all (fun c => Dict.has cols c) = true := by rw [← hcols]; rfl
  have g6 : Dict.set cols "zp".toList (zps.map Cell.num) = cols ++ [("zp".toList, zps.map Cell.num)] := by rw [← hcols]; rfl
  have g7 : Dict.has cols "zp".toList = false := by rw [← hcols]; rfl
  have g8 : Dict.get? (cols ++ [("zp".toList, zps.map Cell.num)]) "ra".toList = some (ras.map Cell.num) := by rw [← hcols]; rfl
  have g9 : Dict.get? (cols ++ [("zp".toList, zps.map Cell.num)]) "dec".toList = some (decs.map Cell.num) := by rw [← hcols]; rfl
  rw [show opsimClass.required = ["ra".toList, "dec".toList, "time".toList] from rfl, if_pos g4]
  have hf : uniqueFilters cols = .ok (npUnique bands) := by
    unfold uniqueFilters
    rw [g1]
    dsimp only
    rw [mapM_str]
  rw [hf]
  dsimp only
  have hcont : ∀ u : ObsTable, u.cols = cols → u.invColmap = swapped opsimClass.colmap → u.contains "zp".toList = false := by
    intro u hu hi
    unfold ObsTable.contains
    rw [hu, hi, g7, if_neg (by simp)]
    rw [show (swapped opsimClass.colmap).get? "zp".toList = none from rfl]
  rw [hcont _ rfl rfl, if_neg (by simp)]
  have ha : opsimClass.assignZp ⟨cols, labels, swapped opsimClass.colmap, mergeSurvey opsimClass.defaults none [], npUnique bands, [], none⟩ =
      .ok ⟨cols ++ [("zp".toList, zps.map Cell.num)], labels, swapped opsimClass.colmap, mergeSurvey opsimClass.defaults none [], npUnique bands, [], none⟩ := by
    show opsimAssignZp lsstZp lsstExt _ = _
    unfold opsimAssignZp
    dsimp only
    rw [if_pos g5, g1]
    dsimp only
    rw [mapM_str]
    dsimp only
    rw [ObsLemmas.numCol_ok.2 g2]
    dsimp only
    rw [ObsLemmas.numCol_ok.2 g3]
    dsimp only
    rw [hz]
    dsimp only
    unfold ObsTable.addColumn
    dsimp only
    rw [if_neg (by simp), if_pos (by rw [List.length_map]; exact hl), g6]
  rw [ha]
  dsimp only
  unfold buildTree
  rw [ObsLemmas.numCol_ok.2 g8]
  dsimp only
  rw [ObsLemmas.numCol_ok.2 g9]
  dsimp only
  unfold opsimTable
  rw [← hcols]
  rfl

/-- The draws of `create_random_opsim`, in the order in which the generator gives them. -/
structure OpsimDraws (G : Rng ρ) (r : ρ) (n : Nat) (us vs ws : List ℝ) (ks : List Nat) : Prop where
  us_eq : us = (G.unit.draw r n).2
  vs_eq : vs = (G.unit.draw (G.unit.draw r n).1 n).2
  ws_eq : ws = (G.unit.draw (G.unit.draw (G.unit.draw r n).1 n).1 n).2
  ks_eq : ks = (G.pick (G.unit.draw (G.unit.draw (G.unit.draw r n).1 n).1 n).1 6 n).2

/-- The LSST filters, their zero points for one second and their extinction coefficients. -/
noncomputable def lsstFilters : List (Name × ℝ × ℝ) :=
  [("u".toList, 26.524, -0.458), ("g".toList, 28.508, -0.208), ("r".toList, 28.361, -0.122), ("i".toList, 28.171, -0.074),
   ("z".toList, 27.782, -0.057), ("y".toList, 26.818, -0.095)]

/-- Row `i` of a random `OpSim`, made from three unit draws and the filter `b`. -/
structure OpsimRow (t : ObsTable) (i : Nat) (u v w : ℝ) (b : Name) : Prop where
  time : rowNum t "time".toList i = some (0.05 * (i : ℝ))
  sky : ∃ ra dec, rowNum t "ra".toList i = some ra ∧ rowNum t "dec".toList i = some dec ∧ OnSky ra dec u v
  airmass : rowNum t "airmass".toList i = some (1.3 + 0.4 * w) ∧ 0 ≤ w ∧ w < 1
  filter : rowStr t "filter".toList i = some b ∧ b ∈ ["u".toList, "g".toList, "r".toList, "i".toList, "z".toList, "y".toList]
  exptime : rowNum t "exptime".toList i = some 29
  zp : ∃ z k, (b, z, k) ∈ lsstFilters ∧
    rowNum t "zp".toList i = some (mag2flux (z + k * (0.3 + 0.4 * w) + 2.5 * logb 10 29))

theorem rowNum_of {t : ObsTable} {name : Name} {l : List ℝ} (h : t.cols.get? name = some (l.map Cell.num)) (i : Nat) :
    rowNum t name i = l[i]? := by
  unfold rowNum
  rw [h, Option.bind_some, List.getElem?_map]
  cases l[i]? <;> rfl

theorem rowStr_of {t : ObsTable} {name : Name} {l : List Name} (h : t.cols.get? name = some (l.map Cell.str)) (i : Nat) :
    rowStr t name i = l[i]? := by
  unfold rowStr
  rw [h, Option.bind_some, List.getElem?_map]
  cases l[i]? <;> rfl

theorem bands_known : ∀ b ∈ opsimBands, ∃ z k, lsstZp.get? b = some (.flt z) ∧ lsstExt.get? b = some (.flt k) := by
  intro b hb
  simp only [opsimBands, List.mem_cons, List.not_mem_nil, or_false] at hb
  rcases hb with rfl | rfl | rfl | rfl | rfl | rfl <;> exact ⟨_, _, rfl, rfl⟩

theorem bands_listed {b : Name} {z k : ℝ} (hb : b ∈ opsimBands) (h1 : lsstZp.get? b = some (.flt z)) (h2 : lsstExt.get? b = some (.flt k)) :
    (b, z, k) ∈ lsstFilters := by
  simp only [opsimBands, List.mem_cons, List.not_mem_nil, or_false] at hb
  have e1 : ∀ {x y : ℝ}, (some (ZNum.flt x) : Option ZNum) = some (ZNum.flt y) → y = x := by
    intro x y h
    cases h
    rfl
  rcases hb with rfl | rfl | rfl | rfl | rfl | rfl <;> rw [e1 h1, e1 h2] <;> simp [lsstFilters]

theorem getD_band {k : Nat} (h : k < 6) : ∃ b, opsimBands[k]? = some b ∧ opsimBands.getD k [] = b ∧ b ∈ opsimBands := by
  have h' : k < opsimBands.length := h
  refine ⟨opsimBands[k], List.getElem?_eq_getElem h', ?_, List.getElem_mem h'⟩
  rw [List.getD_eq_getElem?_getD, List.getElem?_eq_getElem h', Option.getD_some]

/-- The times, exposure times and filters of the table. -/
noncomputable def opsimTimes (n : Nat) : List ℝ := (List.range n).map fun (i : Nat) => (0.05 * (i : ℝ) : ℝ)
def opsimExps (n : Nat) : List ℝ := (List.range n).map fun (_ : Nat) => (29 * 1 : ℝ)
def opsimFilters (ks : List Nat) : List Name := ks.map fun k => opsimBands.getD k []
noncomputable def opsimAirmass (ws : List ℝ) : List ℝ := ws.map fun w => between 1.3 1.7 w

theorem opsim_rows (n : Nat) (hn : 0 < n) (us vs ws : List ℝ) (ks : List Nat) (lu : us.length = n) (lv : vs.length = n) (lw : ws.length = n)
    (lk : ks.length = n) (bu : ∀ x ∈ us, 0 ≤ x ∧ x < 1) (bv : ∀ x ∈ vs, 0 ≤ x ∧ x < 1) (bw : ∀ x ∈ ws, 0 ≤ x ∧ x < 1) (bk : ∀ x ∈ ks, x < 6)
    (labels : List Int) :
    ∃ zps, fluxZeropoint lsstZp lsstExt (opsimFilters ks) (opsimAirmass ws) (opsimExps n) = .ok zps ∧ zps.length = n ∧
      ∀ i < n, ∃ u v w k b, us[i]? = some u ∧ vs[i]? = some v ∧ ws[i]? = some w ∧ ks[i]? = some k ∧ opsimBands[k]? = some b ∧
        OpsimRow (opsimTable (opsimTimes n) (us.map raOf) (vs.map decOf) (opsimAirmass ws) (opsimFilters ks) (opsimExps n) zps labels) i u v w b := by
  have hmem : ∀ b ∈ opsimFilters ks, b ∈ opsimBands := by
    intro b hb
    obtain ⟨k, hk, rfl⟩ := List.mem_map.1 hb
    obtain ⟨b, _, h2, h3⟩ := getD_band (bk k hk)
    rw [h2]
    exact h3
  have lb : (opsimFilters ks).length = n := by rw [opsimFilters, List.length_map, lk]
  have hne : opsimFilters ks ≠ [] := by
    intro h
    rw [h] at lb
    simp at lb
    omega
  have hhas : ∀ b ∈ opsimFilters ks, lsstZp.has b = true ∧ lsstExt.has b = true := by
    intro b hb
    obtain ⟨z, k, h1, h2⟩ := bands_known b (hmem b hb)
    unfold Dict.has
    rw [h1, h2]
    exact ⟨rfl, rfl⟩
  have lam : (opsimAirmass ws).length = (opsimFilters ks).length := by rw [opsimAirmass, List.length_map, lw, lb]
  have les : (opsimExps n).length = (opsimFilters ks).length := by rw [opsimExps, List.length_map, List.length_range, lb]
  obtain ⟨zps, hz⟩ := (ZeropointProps.C51_zero_points_succeed (opsimAirmass ws) (opsimExps n) hne).1 hhas
  have hff : ∀ (d : Dict Name ZNum), (∀ b ∈ opsimBands, ∃ z, d.get? b = some (.flt z)) → ZeropointProps.FloatFirst d (opsimFilters ks) := by
    intro d hd
    obtain ⟨b, rest, hb⟩ := List.exists_cons_of_ne_nil hne
    obtain ⟨z, hz⟩ := hd b (hmem b (by rw [hb]; exact List.mem_cons_self))
    exact ⟨b, rest, z, hb, hz⟩
  obtain ⟨lz, hzi⟩ := ZeropointProps.C51_zero_points_partial
    (hff lsstZp fun b hb => (bands_known b hb).imp fun z ⟨k, h, _⟩ => h)
    (hff lsstExt fun b hb => by obtain ⟨z, k, _, h⟩ := bands_known b hb; exact ⟨k, h⟩) lam les hz
  refine ⟨zps, hz, by rw [lz, lb], fun i hi => ?_⟩
  have iu : us[i]? = some us[i] := List.getElem?_eq_getElem (by omega)
  have iv : vs[i]? = some vs[i] := List.getElem?_eq_getElem (by omega)
  have iw : ws[i]? = some ws[i] := List.getElem?_eq_getElem (by omega)
  have ik : ks[i]? = some ks[i] := List.getElem?_eq_getElem (by omega)
  obtain ⟨b, hb1, hb2, hb3⟩ := getD_band (bk ks[i] (List.getElem_mem _))
  have ib : (opsimFilters ks)[i]? = some b := by
    rw [opsimFilters, List.getElem?_map, ik, Option.map_some, hb2]
  have bu' := bu us[i] (List.getElem_mem _)
  have bv' := bv vs[i] (List.getElem_mem _)
  have bw' := bw ws[i] (List.getElem_mem _)
  generalize us[i] = u at iu bu'
  generalize vs[i] = v at iv bv'
  generalize ws[i] = w at iw bw'
  have ia : (opsimAirmass ws)[i]? = some (1.3 + 0.4 * w) := by
    rw [opsimAirmass, List.getElem?_map, iw, Option.map_some]
    unfold between
    norm_num
  have ie : (opsimExps n)[i]? = some 29 := by
    rw [opsimExps, List.getElem?_map, List.getElem?_range hi, Option.map_some, mul_one]
  refine ⟨u, v, w, ks[i], b, iu, iv, iw, ik, hb1, ?_, ?_, ?_, ?_, ?_, ?_⟩
  · rw [rowNum_of (l := opsimTimes n) rfl, opsimTimes, List.getElem?_map, List.getElem?_range hi, Option.map_some]
  · refine ⟨raOf u, decOf v, ?_, ?_, onSky bu' bv'⟩
    · rw [rowNum_of (l := us.map raOf) rfl, List.getElem?_map, iu, Option.map_some]
    · rw [rowNum_of (l := vs.map decOf) rfl, List.getElem?_map, iv, Option.map_some]
  · exact ⟨by rw [rowNum_of (l := opsimAirmass ws) rfl, ia], bw'⟩
  · exact ⟨by rw [rowStr_of (l := opsimFilters ks) rfl, ib], hb3⟩
  · rw [rowNum_of (l := opsimExps n) rfl, ie]
  · obtain ⟨z, k, hz1, hk1⟩ := bands_known b hb3
    refine ⟨z, k, bands_listed hb3 hz1 hk1, ?_⟩
    obtain ⟨zi, ze, h1, h2, h3⟩ := hzi i b _ 29 ib ia ie
    rw [hz1] at h1
    rw [hk1] at h2
    cases h1
    cases h2
    rw [rowNum_of (l := zps) rfl, h3]
    have : (1.3 + 0.4 * w - 1 : ℝ) = 0.3 + 0.4 * w := by ring
    rw [this]
    rfl

/-- **C104.** For every positive number of observations, every seed and every behaviour of the generator: the construction succeeds; the table has
that many rows, labelled 0, 1, ...; row `i` is at time `0.05 i`, at a position of the sky made from draws uniform in area, with an airmass from 1.3 to 1.7,
one of the six filters and 29 seconds of exposure, and the zero point is that of its filter, airmass and exposure; there is no footprint and the
radius is 1.75 degrees. -/
theorem C104_opsim (G : Rng ρ) (entropy : ρ) (n : Nat) (hn : 0 < n) (seed : Option Int) :
    ∃ t us vs ws ks, createRandomOpsim G entropy n seed = .ok t ∧ OpsimDraws G (startState G entropy seed) n us vs ws ks ∧
      t.labels = (List.range n).map (fun (i : Nat) => (i : Int)) ∧ t.footprint = none ∧ t.radius = some 1.75 ∧
      ∀ i < n, ∃ u v w k b, us[i]? = some u ∧ vs[i]? = some v ∧ ws[i]? = some w ∧ ks[i]? = some k ∧
        ["u".toList, "g".toList, "r".toList, "i".toList, "z".toList, "y".toList][k]? = some b ∧ OpsimRow t i u v w b := by
  have bounds : ∀ r, ∀ x ∈ (G.unit.draw r n).2, 0 ≤ x ∧ x < 1 := fun r x hx => ⟨G.unit.nonneg _ _ x hx, G.unit.lt_one _ _ x hx⟩
  obtain ⟨zps, hz, lz, hrows⟩ := opsim_rows n hn _ _ _ _ (G.unit.length (startState G entropy seed) n)
    (G.unit.length (G.unit.draw (startState G entropy seed) n).1 n)
    (G.unit.length (G.unit.draw (G.unit.draw (startState G entropy seed) n).1 n).1 n)
    (G.pick_length (G.unit.draw (G.unit.draw (G.unit.draw (startState G entropy seed) n).1 n).1 n).1 6 n)
    (bounds _) (bounds _) (bounds _) (fun x hx => G.pick_lt _ _ _ (by norm_num) x hx) (freshLabels n)
  refine ⟨_, _, _, _, _, ?_, ⟨rfl, rfl, rfl, rfl⟩, ?_, ?_, ?_, hrows⟩
  · rw [← opsim_construct _ _ _ _ _ _ (freshLabels n) zps hz (by rw [lz, freshLabels, List.length_map, List.length_range])]
    unfold createRandomOpsim
    rw [if_neg (by omega), Int.toNat_natCast]
    congr 2
    unfold opsimCols named opsimTimes opsimExps opsimFilters opsimAirmass
    simp only [List.map_map]
    rfl
  · rfl
  · rfl
  · rfl

/-- **C104.** The same seed gives the same table, whatever the state of the operating system. -/
theorem C104_reproducible (G : Rng ρ) (entropy entropy' : ρ) (n : Int) (seed : Int) :
    createRandomOpsim G entropy n (some seed) = createRandomOpsim G entropy' n (some seed) ∧
    createRandomZtf G entropy n (some seed) = createRandomZtf G entropy' n (some seed) := ⟨rfl, rfl⟩

/-- **C104.** A number of observations that is not positive: ValueError. -/
theorem C104_refused (G : Rng ρ) (entropy : ρ) (n : Int) (hn : n ≤ 0) (seed : Option Int) :
    createRandomOpsim G entropy n seed = .error .valueError ∧ createRandomZtf G entropy n seed = .error .valueError := by
  unfold createRandomOpsim createRandomZtf
  rw [if_pos hn, if_pos hn]
  exact ⟨rfl, rfl⟩

/-- **C104.** Random data is a new column with one value per row, between the limits, and changes nothing else; the name of a column that exists: KeyError. -/
theorem C104_add_data (G : Rng ρ) (r : ρ) (t : ObsTable) (name : Name) (lo hi : ℝ) :
    (t.cols.has name = true → addRandomData G r t name lo hi = .error .keyError) ∧
    (t.cols.has name = false → ∃ t', addRandomData G r t name lo hi = .ok t' ∧
      (∀ i < t.len, ∃ x, rowNum t' name i = some x ∧ (lo ≤ hi → lo ≤ x ∧ x ≤ hi)) ∧
      (∀ other, other ≠ name → t'.cols.get? other = t.cols.get? other) ∧ t'.labels = t.labels ∧ t'.survey = t.survey ∧ t'.tree = t.tree ∧
      t'.filters = t.filters) := by
  unfold addRandomData ObsTable.addColumn
  refine ⟨fun h => by rw [if_pos ⟨h, rfl⟩], fun h => ?_⟩
  rw [if_neg (by simp [h])]
  dsimp only
  have hl := G.unit.length r t.len
  rw [if_pos (by rw [List.length_map, hl])]
  refine ⟨_, rfl, fun i hil => ?_, fun o ho => Dict.get?_set_ne _ _ (Ne.symm ho), rfl, rfl, rfl, rfl⟩
  set us := (G.unit.draw r t.len).2 with hus
  have iu : us[i]? = some us[i] := List.getElem?_eq_getElem (by omega)
  refine ⟨between lo hi us[i], ?_, fun hlh => ?_⟩
  · rw [rowNum_of (l := us.map (between lo hi))]
    · rw [List.getElem?_map, iu]; rfl
    · dsimp only
      rw [Dict.get?_set_self, List.map_map]
      rfl
  · have h0 := G.unit.nonneg _ _ _ (List.getElem_mem (h := (by omega : i < us.length)))
    have h1 := G.unit.lt_one _ _ _ (List.getElem_mem (h := (by omega : i < us.length)))
    unfold between
    constructor <;> nlinarith

/-! ## ZTF -/

/-- The columns of the frame after the dates have been converted. -/
def ztfFrameCols (date : Name) (n : Nat) (ras decs ms ss fs : List ℝ) (bands : List Name) (es ts : List ℝ) : Dict Name (List Cell) :=
  [("obsdate".toList, (List.range n).map fun _ => Cell.str date), ("ra".toList, ras.map Cell.num), ("dec".toList, decs.map Cell.num),
   ("maglim".toList, ms.map Cell.num), ("scibckgnd".toList, ss.map Cell.num), ("fwhm".toList, fs.map Cell.num), ("filter".toList, bands.map Cell.str),
   ("exptime".toList, es.map Cell.num), ("obsmjd".toList, ts.map Cell.num)]

/-- The zero points of the table. -/
noncomputable def ztfZps (ms ss fs es : List ℝ) : List ℝ :=
  List.zipWith (fun (p : ℝ × ℝ) (q : ℝ × ℝ) => ztfZp p.1 p.2 q.1 q.2) (ms.zip ss) (fs.zip es)

/-- The table `ZTFObsTable` makes of them. -/
noncomputable def ztfTable (date : Name) (n : Nat) (ras decs ms ss fs : List ℝ) (bands : List Name) (es ts : List ℝ) (labels : List Int) : ObsTable :=
  ⟨[("obsdate".toList, (List.range n).map fun _ => Cell.str date), ("ra".toList, ras.map Cell.num), ("dec".toList, decs.map Cell.num),
    ("maglim".toList, ms.map Cell.num), ("sky".toList, ss.map Cell.num), ("fwhm".toList, fs.map Cell.num), ("filter".toList, bands.map Cell.str),
    ("exptime".toList, es.map Cell.num), ("time".toList, ts.map Cell.num), ("zp".toList, (ztfZps ms ss fs es).map Cell.num)], labels,
    swapped ztfClass.colmap, ztfClass.defaults, npUnique bands, List.zipWith toCart ras decs, none⟩

theorem ztf_remap : remap ["obsdate".toList, "ra".toList, "dec".toList, "maglim".toList, "scibckgnd".toList, "fwhm".toList, "filter".toList,
    "exptime".toList, "obsmjd".toList] ztfClass.colmap [] [] =
    .ok ([("maglim".toList, "maglim".toList), ("scibckgnd".toList, "sky".toList), ("fwhm".toList, "fwhm".toList), ("dec".toList, "dec".toList),
      ("exptime".toList, "exptime".toList), ("filter".toList, "filter".toList), ("ra".toList, "ra".toList), ("obsmjd".toList, "time".toList)],
      swapped ztfClass.colmap) := by
  rfl

theorem ztf_construct (date : Name) (n : Nat) (ras decs ms ss fs es ts : List ℝ) (bands : List Name) (labels : List Int)
    (hl : (ztfZps ms ss fs es).length = labels.length) :
    construct ztfClass ⟨ztfFrameCols date n ras decs ms ss fs bands es ts, labels, none⟩ none [] none =
      .ok (ztfTable date n ras decs ms ss fs bands es ts labels) := by
  unfold construct ObsTable.init
  have hk : Dict.keys (⟨ztfFrameCols date n ras decs ms ss fs bands es ts, labels, none⟩ : Frame).cols = ["obsdate".toList, "ra".toList, "dec".toList,
    "maglim".toList, "scibckgnd".toList, "fwhm".toList, "filter".toList, "exptime".toList, "obsmjd".toList] := rfl
  have hc : chosenMap ztfClass none = ztfClass.colmap := rfl
  rw [hk, hc, ztf_remap]
  dsimp only
  have hr : rename [("maglim".toList, "maglim".toList), ("scibckgnd".toList, "sky".toList), ("fwhm".toList, "fwhm".toList), ("dec".toList, "dec".toList),
      ("exptime".toList, "exptime".toList), ("filter".toList, "filter".toList), ("ra".toList, "ra".toList), ("obsmjd".toList, "time".toList)]
      (ztfFrameCols date n ras decs ms ss fs bands es ts) =
      [("obsdate".toList, (List.range n).map fun _ => Cell.str date), ("ra".toList, ras.map Cell.num), ("dec".toList, decs.map Cell.num),
    ("maglim".toList, ms.map Cell.num), ("sky".toList, ss.map Cell.num), ("fwhm".toList, fs.map Cell.num), ("filter".toList, bands.map Cell.str),
    ("exptime".toList, es.map Cell.num), ("time".toList, ts.map Cell.num)] := rfl
  rw [hr]
  generalize hcols : ([("obsdate".toList, (List.range n).map fun _ => Cell.str date), ("ra".toList, ras.map Cell.num), ("dec".toList, decs.map Cell.num),
    ("maglim".toList, ms.map Cell.num), ("sky".toList, ss.map Cell.num), ("fwhm".toList, fs.map Cell.num), ("filter".toList, bands.map Cell.str),
    ("exptime".toList, es.map Cell.num), ("time".toList, ts.map Cell.num)] : Dict Name (List Cell)) = cols
  have g1 : Dict.get? cols "filter".toList = some (bands.map Cell.str) := by rw [← hcols]; rfl
  have m1 : Dict.get? cols "maglim".toList = some (ms.map Cell.num) := by rw [← hcols]; rfl
  have m2 : Dict.get? cols "sky".toList = some (ss.map Cell.num) := by rw [← hcols]; rfl
  have m3 : Dict.get? cols "fwhm".toList = some (fs.map Cell.num) := by rw [← hcols]; rfl
  have m4 : Dict.get? cols "exptime".toList = some (es.map Cell.num) := by rw [← hcols]; rfl
  have g4 : ["ra".toList, "dec".toList, "time".toList].all (fun c => Dict.has cols c) = true := by rw [← hcols]; rfl
  have g5 : ["maglim".toList, "sky".toList, "fwhm".toList, "exptime".toList].all (fun c => Dict.has cols c) = true := by rw [← hcols]; rfl
  have g6 : ∀ l, Dict.set cols "zp".toList l = cols ++ [("zp".toList, l)] := by intro l; rw [← hcols]; rfl
  have g7 : Dict.has cols "zp".toList = false := by rw [← hcols]; rfl
  have g8 : ∀ l, Dict.get? (cols ++ [("zp".toList, l)]) "ra".toList = some (ras.map Cell.num) := by intro l; rw [← hcols]; rfl
  have g9 : ∀ l, Dict.get? (cols ++ [("zp".toList, l)]) "dec".toList = some (decs.map Cell.num) := by intro l; rw [← hcols]; rfl
  rw [show ztfClass.required = ["ra".toList, "dec".toList, "time".toList] from rfl, if_pos g4]
  have hf : uniqueFilters cols = .ok (npUnique bands) := by
    unfold uniqueFilters
    rw [g1]
    dsimp only
    rw [mapM_str]
  rw [hf]
  dsimp only
  have hcont : ∀ u : ObsTable, u.cols = cols → u.invColmap = swapped ztfClass.colmap → u.contains "zp".toList = false := by
    intro u hu hi
    unfold ObsTable.contains
    rw [hu, hi, g7, if_neg (by simp)]
    rw [show (swapped ztfClass.colmap).get? "zp".toList = none from rfl]
  rw [hcont _ rfl rfl, if_neg (by simp)]
  have hzc : (List.zipWith (fun (p : ℝ × ℝ) (q : ℝ × ℝ) => Cell.num (ztfZp p.1 p.2 q.1 q.2)) (ms.zip ss) (fs.zip es)) =
      (ztfZps ms ss fs es).map Cell.num := by
    unfold ztfZps
    rw [List.map_zipWith]
  have ha : ztfClass.assignZp ⟨cols, labels, swapped ztfClass.colmap, mergeSurvey ztfClass.defaults none [], npUnique bands, [], none⟩ =
      .ok ⟨cols ++ [("zp".toList, (ztfZps ms ss fs es).map Cell.num)], labels, swapped ztfClass.colmap, mergeSurvey ztfClass.defaults none [], npUnique bands, [], none⟩ := by
    show ztfAssignZp _ = _
    unfold ztfAssignZp
    dsimp only
    rw [if_pos g5, ObsLemmas.numCol_ok.2 m1]
    dsimp only
    rw [ObsLemmas.numCol_ok.2 m2]
    dsimp only
    rw [ObsLemmas.numCol_ok.2 m3]
    dsimp only
    rw [ObsLemmas.numCol_ok.2 m4]
    dsimp only
    rw [hzc]
    unfold ObsTable.addColumn
    dsimp only
    rw [if_neg (by simp), if_pos (by rw [List.length_map]; exact hl), g6]
  rw [ha]
  dsimp only
  unfold buildTree
  rw [ObsLemmas.numCol_ok.2 (g8 _)]
  dsimp only
  rw [ObsLemmas.numCol_ok.2 (g9 _)]
  dsimp only
  unfold ztfTable
  rw [← hcols]
  rfl

/-- Row `i` of a table made from random ZTF data observed at the time `T`, from five unit draws and the filter `b`. -/
structure ZtfRow (t : ObsTable) (i : Nat) (T u v m s f : ℝ) (b : Name) : Prop where
  time : rowNum t "time".toList i = some T
  sky_pos : ∃ ra dec, rowNum t "ra".toList i = some ra ∧ rowNum t "dec".toList i = some dec ∧ OnSky ra dec u v
  maglim : rowNum t "maglim".toList i = some (19 + 2 * m)
  sky : rowNum t "sky".toList i = some (100 + 100 * s)
  fwhm : rowNum t "fwhm".toList i = some (1 + 2 * f)
  filter : rowStr t "filter".toList i = some b ∧ b ∈ ["g".toList, "r".toList, "i".toList]
  exptime : rowNum t "exptime".toList i = some 30
  zp : rowNum t "zp".toList i = some (mag2flux (zpFromMaglim (19 + 2 * m) (100 + 100 * s) (1 + 2 * f) 6.2 8 0 30 1))

/-- The draws of `create_random_ztf_obs_data`: each from the state the one before left. -/
def ZtfDraws (G : Rng ρ) (r : ρ) (n : Nat) (us vs ms ss fs : List ℝ) (ks : List Nat) : Prop :=
  ∃ r1 r2 r3 r4 r5, G.unit.draw r n = (r1, us) ∧ G.unit.draw r1 n = (r2, vs) ∧ G.unit.draw r2 n = (r3, ms) ∧ G.unit.draw r3 n = (r4, ss) ∧
    G.unit.draw r4 n = (r5, fs) ∧ (G.pick r5 3 n).2 = ks

theorem getD_ztf {k : Nat} (h : k < 3) : ∃ b, ztfBands[k]? = some b ∧ ztfBands.getD k [] = b ∧ b ∈ ztfBands := by
  have h' : k < ztfBands.length := h
  refine ⟨ztfBands[k], List.getElem?_eq_getElem h', ?_, List.getElem_mem h'⟩
  rw [List.getD_eq_getElem?_getD, List.getElem?_eq_getElem h', Option.getD_some]

/-- The fields of the table. -/
def ztfExps (n : Nat) : List ℝ := (List.range n).map fun (_ : Nat) => (30 * 1 : ℝ)
def ztfFilters (ks : List Nat) : List Name := ks.map fun k => ztfBands.getD k []

theorem ztf_rows (date : Name) (T : ℝ) (n : Nat) (us vs ms ss fs : List ℝ) (ks : List Nat) (lu : us.length = n) (lv : vs.length = n) (lm : ms.length = n)
    (ls : ss.length = n) (lf : fs.length = n) (lk : ks.length = n) (bu : ∀ x ∈ us, 0 ≤ x ∧ x < 1) (bv : ∀ x ∈ vs, 0 ≤ x ∧ x < 1)
    (bk : ∀ x ∈ ks, x < 3) (labels : List Int) (i : Nat) (hi : i < n) :
    ∃ u v m s f k b, us[i]? = some u ∧ vs[i]? = some v ∧ ms[i]? = some m ∧ ss[i]? = some s ∧ fs[i]? = some f ∧ ks[i]? = some k ∧
      ztfBands[k]? = some b ∧
      ZtfRow (ztfTable date n (us.map raOf) (vs.map decOf) (ms.map (between 19 21)) (ss.map (between 100 200)) (fs.map (between 1 3))
        (ztfFilters ks) (ztfExps n) (List.replicate n T) labels) i T u v m s f b := by
  have iu : us[i]? = some us[i] := List.getElem?_eq_getElem (by omega)
  have iv : vs[i]? = some vs[i] := List.getElem?_eq_getElem (by omega)
  have im : ms[i]? = some ms[i] := List.getElem?_eq_getElem (by omega)
  have is : ss[i]? = some ss[i] := List.getElem?_eq_getElem (by omega)
  have if' : fs[i]? = some fs[i] := List.getElem?_eq_getElem (by omega)
  have ik : ks[i]? = some ks[i] := List.getElem?_eq_getElem (by omega)
  obtain ⟨b, hb1, hb2, hb3⟩ := getD_ztf (bk ks[i] (List.getElem_mem _))
  have ib : (ztfFilters ks)[i]? = some b := by
    rw [ztfFilters, List.getElem?_map, ik, Option.map_some, hb2]
  have bu' := bu us[i] (List.getElem_mem _)
  have bv' := bv vs[i] (List.getElem_mem _)
  generalize us[i] = u at iu bu'
  generalize vs[i] = v at iv bv'
  generalize ms[i] = m at im
  generalize ss[i] = s at is
  generalize fs[i] = f at if'
  have jm : (ms.map (between 19 21))[i]? = some (19 + 2 * m) := by
    rw [List.getElem?_map, im, Option.map_some]; unfold between; norm_num
  have js : (ss.map (between 100 200))[i]? = some (100 + 100 * s) := by
    rw [List.getElem?_map, is, Option.map_some]; unfold between; norm_num
  have jf : (fs.map (between 1 3))[i]? = some (1 + 2 * f) := by
    rw [List.getElem?_map, if', Option.map_some]; unfold between; norm_num
  have je : (ztfExps n)[i]? = some 30 := by
    rw [ztfExps, List.getElem?_map, List.getElem?_range hi, Option.map_some, mul_one]
  refine ⟨u, v, m, s, f, ks[i], b, iu, iv, im, is, if', ik, hb1, ?_, ?_, ?_, ?_, ?_, ?_, ?_, ?_⟩
  · rw [rowNum_of (l := List.replicate n T) rfl, List.getElem?_replicate, if_pos hi]
  · refine ⟨raOf u, decOf v, ?_, ?_, onSky bu' bv'⟩
    · rw [rowNum_of (l := us.map raOf) rfl, List.getElem?_map, iu, Option.map_some]
    · rw [rowNum_of (l := vs.map decOf) rfl, List.getElem?_map, iv, Option.map_some]
  · rw [rowNum_of (l := ms.map (between 19 21)) rfl, jm]
  · rw [rowNum_of (l := ss.map (between 100 200)) rfl, js]
  · rw [rowNum_of (l := fs.map (between 1 3)) rfl, jf]
  · exact ⟨by rw [rowStr_of (l := ztfFilters ks) rfl, ib], hb3⟩
  · rw [rowNum_of (l := ztfExps n) rfl, je]
  · rw [rowNum_of (l := ztfZps (ms.map (between 19 21)) (ss.map (between 100 200)) (fs.map (between 1 3)) (ztfExps n)) rfl]
    unfold ztfZps
    rw [List.getElem?_zipWith, List.getElem?_zip_eq_some (z := (19 + 2 * m, 100 + 100 * s)).2 ⟨jm, js⟩, List.getElem?_zip_eq_some (z := (1 + 2 * f, 30)).2 ⟨jf, je⟩]
    rfl

theorem mapM_dates {mjd : Name → Except Err ℝ} {date : Name} {T : ℝ} (h : mjd date = .ok T) (n : Nat) :
    (List.replicate n date).mapM mjd = .ok (List.replicate n T) := by
  induction n with
  | zero => rfl
  | succ n ih => rw [List.replicate_succ, List.mapM_cons, h, ih]; rfl

/-- **C104.** The same for ZTF: for every positive number of observations the data are made, and `ZTFObsTable` accepts them: every row is at the time
the one date stands for, at a position made from draws uniform in area, with a limiting magnitude from 19 to 21, a background from 100 to 200, a width from
1 to 3, one of three filters, 30 seconds of exposure, and the zero point of these values. -/
theorem C104_ztf (G : Rng ρ) (entropy : ρ) (n : Nat) (hn : 0 < n) (seed : Option Int) (mjd : Name → Except Err ℝ) (T : ℝ)
    (hT : mjd "2018-03-25 06:04:40.000".toList = .ok T) :
    ∃ f t us vs ms ss fs ks, createRandomZtf G entropy n seed = .ok f ∧ ztfInit mjd f none [] none = .ok t ∧
      t.labels = (List.range n).map (fun (i : Nat) => (i : Int)) ∧ t.footprint = none ∧ t.radius = some 2.735 ∧
      ZtfDraws G (startState G entropy seed) n us vs ms ss fs ks ∧
      ∀ i < n, ∃ u v m s w k b, us[i]? = some u ∧ vs[i]? = some v ∧ ms[i]? = some m ∧ ss[i]? = some s ∧ fs[i]? = some w ∧ ks[i]? = some k ∧
        ["g".toList, "r".toList, "i".toList][k]? = some b ∧ ZtfRow t i T u v m s w b := by
  have bounds : ∀ r, ∀ x ∈ (G.unit.draw r n).2, 0 ≤ x ∧ x < 1 := fun r x hx => ⟨G.unit.nonneg _ _ x hx, G.unit.lt_one _ _ x hx⟩
  have hrows := ztf_rows "2018-03-25 06:04:40.000".toList T n _ _ _ _ _ _ (G.unit.length (startState G entropy seed) n)
    (G.unit.length (G.unit.draw (startState G entropy seed) n).1 n)
    (G.unit.length (G.unit.draw (G.unit.draw (startState G entropy seed) n).1 n).1 n)
    (G.unit.length (G.unit.draw (G.unit.draw (G.unit.draw (startState G entropy seed) n).1 n).1 n).1 n)
    (G.unit.length (G.unit.draw (G.unit.draw (G.unit.draw (G.unit.draw (startState G entropy seed) n).1 n).1 n).1 n).1 n)
    (G.pick_length (G.unit.draw (G.unit.draw (G.unit.draw (G.unit.draw (G.unit.draw (startState G entropy seed) n).1 n).1 n).1 n).1 n).1 3 n)
    (bounds _) (bounds _) (fun x hx => G.pick_lt _ _ _ (by norm_num) x hx) (freshLabels n)
  refine ⟨⟨ztfCols G (startState G entropy seed) n, freshLabels n, none⟩, _, _, _, _, _, _, _, ?_, ?_, ?_, ?_, ?_, ⟨_, _, _, _, _, rfl, rfl, rfl, rfl, rfl, rfl⟩, hrows⟩
  · unfold createRandomZtf
    rw [if_neg (by omega), Int.toNat_natCast]
  · rw [← ztf_construct]
    · unfold ztfInit withMjd
      have hd : (ztfCols G (startState G entropy seed) n).get? "obsdate".toList =
          some ((List.replicate n "2018-03-25 06:04:40.000".toList).map Cell.str) := by
        have : (ztfCols G (startState G entropy seed) n).get? "obsdate".toList =
          some ((List.range n).map fun _ => Cell.str "2018-03-25 06:04:40.000".toList) := rfl
        rw [this, List.map_replicate, List.map_const', List.length_range]
      dsimp only
      rw [hd]
      dsimp only
      rw [show (ztfCols G (startState G entropy seed) n).has "obsmjd".toList = false from rfl, if_neg (by simp), mapM_str]
      dsimp only
      rw [mapM_dates hT]
      dsimp only
      congr 2
      unfold ztfCols ztfFrameCols named ztfExps ztfFilters
      simp only [List.map_map]
      rfl
    · have h1 := G.unit.length (G.unit.draw (G.unit.draw (startState G entropy seed) n).1 n).1 n
      have h2 := G.unit.length (G.unit.draw (G.unit.draw (G.unit.draw (startState G entropy seed) n).1 n).1 n).1 n
      have h3 := G.unit.length (G.unit.draw (G.unit.draw (G.unit.draw (G.unit.draw (startState G entropy seed) n).1 n).1 n).1 n).1 n
      simp [ztfZps, ztfExps, freshLabels, h1, h2, h3]
  · rfl
  · rfl
  · rfl

/-! ## The hypotheses can be met -/

/-- A generator whose draws are all 1/4 and whose choices are all the first. -/
noncomputable def quarter : Rng Unit where
  unit :=
    { draw := fun _ n => ((), List.replicate n (1 / 4))
      length := by simp
      nonneg := by intro r n u hu; rw [List.eq_of_mem_replicate hu]; norm_num
      lt_one := by intro r n u hu; rw [List.eq_of_mem_replicate hu]; norm_num }
  pick := fun _ _ n => ((), List.replicate n 0)
  pick_length := by simp
  pick_lt := by intro r k n hk i hi; rw [List.eq_of_mem_replicate hi]; exact hk
  seeded := fun _ => ()

example : ∃ t, createRandomOpsim quarter () 3 (some 1) = .ok t ∧ rowNum t "ra".toList 2 = some 90 ∧ rowStr t "filter".toList 2 = some "u".toList := by
  obtain ⟨t, us, vs, ws, ks, h, hd, _, _, _, hr⟩ := C104_opsim quarter () 3 (by norm_num) (some 1)
  refine ⟨t, h, ?_⟩
  obtain ⟨u, v, w, k, b, h1, h2, h3, h4, h5, h6⟩ := hr 2 (by norm_num)
  obtain ⟨ra, dec, hra, hdec, ho⟩ := h6.sky
  have e1 : u = 1 / 4 := by
    rw [hd.us_eq] at h1
    have := List.mem_of_getElem? h1
    exact List.eq_of_mem_replicate this
  have e2 : k = 0 := by
    rw [hd.ks_eq] at h4
    have := List.mem_of_getElem? h4
    exact List.eq_of_mem_replicate this
  subst e2
  cases h5
  refine ⟨?_, h6.filter.1⟩
  rw [hra, ho.ra_eq, e1]
  norm_num

end LCL.RandomSurveyProps
