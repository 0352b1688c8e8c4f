import Verif.Spec.SniaSurvey
import Verif.Props.SniaSource
import Verif.Props.FullRun
import Verif.Props.Sncosmo

/-!
# C122: a survey of the example's supernovae
-/

namespace LCL.SniaSurveyProps
open LCL LCL.RandomNodes LCL.SniaSource LCL.SniaSourceProps LCL.SniaSurvey LCL.SniaSurveySpec LCL.FullRun LCL.FullRunSpec LCL.EndToEnd LCL.EndToEndSpec LCL.GraphSpec LCL.PhysSpec
  LCL.ObsSpec LCL.SimSpec LCL.PhotSpec LCL.NodeSpec
variable {ρ U : Type}

/-! ### Only wavelengths within the range are asked for -/

theorem extrapolated_congr {V W R : Type} (m : SEDModel V W R ℝ) (f : W → SState ℝ → List ℝ → List ℝ → Except Err (Mat ℝ)) (noKw kw : W) (times waves : List ℝ)
    (st : SState ℝ) {lo hi : ℝ} (hlo : m.minwave st = some lo) (hhi : m.maxwave st = some hi) (hle : lo ≤ hi)
    (hf : ∀ kw ws, (∀ w ∈ ws, lo ≤ w ∧ w ≤ hi) → m.computeSed kw st times ws = f kw st times ws) :
    m.sedExtrapolated noKw times waves st kw = { m with computeSed := f }.sedExtrapolated noKw times waves st kw := by
  unfold SEDModel.sedExtrapolated
  cases hmin : npMin waves with
  | none => rfl
  | some qlo =>
  cases hmax : npMax waves with
  | none => rfl
  | some qhi =>
  simp only [hlo, hhi, Option.getD_some]
  obtain ⟨-, lle⟩ := PhysLemmas.npMin_spec hmin
  obtain ⟨-, hge⟩ := PhysLemmas.npMax_spec hmax
  split
  · rename_i h
    exact hf kw waves fun w hw => ⟨h.1.trans (lle w hw), (hge w hw).trans h.2⟩
  · unfold SEDModel.extrapolated
    simp only
    rw [hf noKw _ (by
      intro w hw
      simp only [List.cons_append, List.mem_cons, List.mem_append, List.mem_filter, List.not_mem_nil, or_false, Bool.and_eq_true, Bool.not_eq_true',
        decide_eq_false_iff_not, not_lt] at hw
      rcases hw with rfl | ⟨-, h⟩ | rfl
      · exact ⟨le_rfl, hle⟩
      · exact h
      · exact ⟨hle, le_rfl⟩)]

theorem evaluate_congr {V W R : Type} (m : SEDModel V W R ℝ) (f : W → SState ℝ → List ℝ → List ℝ → Except Err (Mat ℝ)) (noKw kw : W) (times waves : List ℝ)
    (st : SState ℝ) (r : R) {lo hi : ℝ} (hlo : m.minwave st = some lo) (hhi : m.maxwave st = some hi) (hle : lo ≤ hi)
    (hf : ∀ times kw ws, (∀ w ∈ ws, lo ≤ w ∧ w ≤ hi) → m.computeSed kw st times ws = f kw st times ws) :
    m.evaluateSingle noKw times waves st r kw = { m with computeSed := f }.evaluateSingle noKw times waves st r kw := by
  have h : ∀ ts ws, { m with computeSed := f }.sedExtrapolated noKw ts ws st kw = m.sedExtrapolated noKw ts ws st kw :=
    fun ts ws => (extrapolated_congr m f noKw kw ts ws st hlo hhi hle (hf ts)).symm
  unfold SEDModel.evaluateSingle
  simp only [h]

/-- The spectrum of the wrapped source, in a state that gives it numbers. -/
theorem observes {lib : Sn.Lib} {m : Sn.Obj} {Fl : (Name → ℝ) → ℝ → ℝ → ℝ} (hF : PointSource lib Fl) (hS : Salt lib m) {st : SState ℝ} {p : Params ℝ}
    {z t0 x0 x1 c : ℝ} (hz1 : z ≠ -1) (hp : st.get? "source".toList = some p) (hz : p.get? redshiftKey = some (.num z)) (ht : p.get? t0Key = some (.num t0))
    (h0 : p.get? "x0".toList = some (.num x0)) (h1 : p.get? "x1".toList = some (.num x1)) (hc : p.get? "c".toList = some (.num c)) :
    Observes (sniaModel (ρ := ρ) lib m) () st (supernova lib Fl (saltParams m.src x0 x1 c) z t0) := by
  have hval : ∀ n ∈ m.named, n ∈ lib.names ∧ p.get? n = some (.num (saltParams m.src x0 x1 c n)) := by
    intro n hn
    refine ⟨hS.known n hn, ?_⟩
    rcases (hS.named n).1 hn with rfl | rfl | rfl
    · rw [h0]; rfl
    · rw [h1]; rfl
    · rw [hc]; rfl
  have hpar : (fun n => if n ∈ m.named then saltParams m.src x0 x1 c n else m.src n) = saltParams m.src x0 x1 c := by
    funext n
    split
    · rfl
    · rename_i hn
      rw [hS.named n] at hn
      push Not at hn
      unfold saltParams
      rw [if_neg hn.1, if_neg hn.2.1, if_neg hn.2.2]
  let F : ℝ → ℝ → ℝ := fun t w => nanojansky (Fl (saltParams m.src x0 x1 c) (t - t0) w) w
  let f : Unit → SState ℝ → List ℝ → List ℝ → Except Err (Mat ℝ) := fun _ _ ts ws => .ok (ts.map fun t => ws.map (F t))
  have hcomp : ∀ (times : List ℝ) kw ws, (∀ w ∈ ws, lib.minwave ≤ w ∧ w ≤ lib.maxwave) → (sniaModel (ρ := ρ) lib m).computeSed kw st times ws = f kw st times ws := by
    intro times kw ws hws
    obtain ⟨a, e1, e2, e3, e4⟩ := (SnProps.C97_value lib m st p (saltParams m.src x0 x1 c) t0 times ws (by rw [hS.node]; exact hp) ht hval hws).1 _ (hF _ _ _)
    rw [hpar] at e4
    refine e1.trans ?_
    show _ = Except.ok (times.map fun t => ws.map (F t))
    congr 1
    apply List.ext_getElem (by rw [e2, List.length_map])
    intro i hi hi'
    rw [List.getElem_map]
    have hrow := e3 a[i] (List.getElem_mem hi)
    apply List.ext_getElem (by rw [hrow, List.length_map])
    intro j hj hj'
    have hjw : j < ws.length := by simpa using hj'
    have hit : i < times.length := by omega
    have := e4 i j ws[j] hit (List.getElem?_eq_getElem hjw)
    rw [List.getElem_map]
    simp only [List.getD_eq_getElem?_getD, List.getElem?_map, List.getElem?_eq_getElem hi, List.getElem?_eq_getElem hit, List.getElem?_eq_getElem hjw, Option.map_some,
      Option.getD_some, List.getElem?_eq_getElem hj] at this
    show _ = nanojansky (Fl (saltParams m.src x0 x1 c) (times[i] - t0) ws[j]) ws[j]
    unfold nanojansky
    rw [← this]
    field_simp
  have key : Observes ({ sniaModel (ρ := ρ) lib m with computeSed := f } : SEDModel Unit Unit (Gens ρ) ℝ) () st
      (fun t w => (1 + z) * stretch (some lib.minwave) (some lib.maxwave) (F (t0 + (t - t0) / (1 + z))) (fun _ _ _ => 0) (w / (1 + z))) :=
    EndToEndProps.C110_redshifted (m := { sniaModel (ρ := ρ) lib m with computeSed := f }) ⟨rfl, rfl⟩ () st p z t0 F (fun _ _ _ => 0) hz1 (fun _ _ _ => rfl)
      (Or.inl ⟨hS.extrap, rfl⟩) (by intro l h hl hh; cases hl; cases hh; exact hS.range) (by show st.get? m.node = some p; rw [hS.node]; exact hp) rfl hz (fun _ => ht)
  have hsn : (fun t w => (1 + z) * stretch (some lib.minwave) (some lib.maxwave) (F (t0 + (t - t0) / (1 + z))) (fun _ _ _ => 0) (w / (1 + z))) =
      supernova lib Fl (saltParams m.src x0 x1 c) z t0 := by
    funext t w
    unfold stretch supernova
    by_cases hlo : w / (1 + z) < lib.minwave
    · rw [if_neg (fun h => absurd h.1 (not_le.2 hlo))]
      simp [Option.filter, hlo]
    · by_cases hhi : lib.maxwave < w / (1 + z)
      · rw [if_neg (fun h => absurd h.2 (not_le.2 hhi))]
        simp [Option.filter, hlo, hhi]
      · rw [if_pos ⟨not_lt.1 hlo, not_lt.1 hhi⟩]
        simp only [Option.filter, hlo, hhi, decide_false, Bool.false_eq_true, if_false]
        show (1 + z) * nanojansky (Fl _ (t0 + (t - t0) / (1 + z) - t0) _) _ = _
        rw [add_sub_cancel_left]
  rw [hsn] at key
  intro times waves r hw
  rw [← key times waves r hw]
  exact evaluate_congr (sniaModel (ρ := ρ) lib m) f () () times waves st r (lo := lib.minwave) (hi := lib.maxwave) rfl rfl hS.range hcomp

/-! ### What the samples hold -/

theorem physical (G : RStream ρ U) (L : Laws U) (tmin tmax : ℝ) : Physical (graph G L tmin tmax) 13 := by
  obtain ⟨nd, h1, h2⟩ := core_at (graph_cores G L tmin tmax) (k := 13) rfl
  have hset : nd.setters = [(s "ra", lnk 11), (s "dec", lnk 12), (s "redshift", ref 4 (s "redshift")), (s "t0", lnk 10), (s "distance", ⟨.const .none, false⟩), (s "x0", lnk 9),
    (s "x1", lnk 6), (s "c", lnk 7)] := congrArg Core.setters h2
  refine ⟨nd, h1, ?_⟩
  rw [hset]
  intro p hp
  simp only [List.mem_cons, List.not_mem_nil, or_false] at hp
  rcases hp with rfl | rfl | rfl | rfl
  · exact ⟨lnk 11, by simp [s]⟩
  · exact ⟨lnk 12, by simp [s]⟩
  · exact ⟨lnk 10, by simp [s]⟩
  · exact ⟨ref 4 (s "redshift"), by simp [s]⟩

theorem column_sample {gs : GState ℝ} {n : Nat} {node p : String} {f : Nat → ℝ} (hn : gs.numSamples = n) (h : Column gs n node p f) {k : Nat} (hk : k < n) :
    sampleValue gs node.toList p.toList k = some (.scalar (f k)) := by
  unfold sampleValue
  rw [hn, h]
  by_cases h1 : n = 1
  · subst h1
    have : k = 0 := by omega
    subst this
    simp
  · rw [if_neg h1, if_neg h1]
    simp [rowAt, hk]

theorem state_num {gs : GState ℝ} {k : Nat} {st : SState ℝ} (h : StateOf gs k st) {node p : Name} {x : ℝ} (hx : sampleValue gs node p k = some (.scalar x)) :
    ∃ d, st.get? node = some d ∧ d.get? p = some (.num x) := by
  have := h node p
  rw [hx] at this
  cases hd : st.get? node with
  | none => rw [hd] at this; cases this
  | some d => rw [hd] at this; exact ⟨d, rfl, this⟩

/-- A number of the source in a state. -/
noncomputable def num (st : SState ℝ) (p : Name) : ℝ :=
  match (st.get? "source".toList).bind (·.get? p) with
  | some (.num x) => x
  | _ => 0

theorem num_eq {gs : GState ℝ} {k : Nat} {st : SState ℝ} (h : StateOf gs k st) {p : Name} {x : ℝ} (hx : sampleValue gs "source".toList p k = some (.scalar x)) : num st p = x := by
  unfold num
  rw [h "source".toList p, hx]
  rfl

/-- The spectrum of the supernova in a state. -/
noncomputable def spectrum (lib : Sn.Lib) (Fl : (Name → ℝ) → ℝ → ℝ → ℝ) (m : Sn.Obj) (st : SState ℝ) : ℝ → ℝ → ℝ :=
  supernova lib Fl (saltParams m.src (num st "x0".toList) (num st "x1".toList) (num st "c".toList)) (num st redshiftKey) (num st t0Key)

variable {G : RStream ρ U} {L : Laws U} {tmin tmax : ℝ} {n : Nat}

theorem spectrum_observed {lib : Sn.Lib} {m : Sn.Obj} {Fl : (Name → ℝ) → ℝ → ℝ → ℝ} (hF : PointSource lib Fl) (hS : Salt lib m) {gs : GState ℝ} (hn : gs.numSamples = n)
    {z t0 x0 x1 c : Nat → ℝ} (cz : Column gs n "source" "redshift" z) (ct : Column gs n "source" "t0" t0) (c0 : Column gs n "source" "x0" x0)
    (c1 : Column gs n "source" "x1" x1) (cc : Column gs n "source" "c" c) {k : Nat} (hk : k < n) (hz : z k ≠ -1) {st : SState ℝ} (h : StateOf gs k st) :
    spectrum lib Fl m st = supernova lib Fl (saltParams m.src (x0 k) (x1 k) (c k)) (z k) (t0 k) ∧ Observes (sniaModel (ρ := ρ) lib m) () st (spectrum lib Fl m st) := by
  have vz := column_sample hn cz hk
  have vt := column_sample hn ct hk
  have v0 := column_sample hn c0 hk
  have v1 := column_sample hn c1 hk
  have vc := column_sample hn cc hk
  have e : spectrum lib Fl m st = supernova lib Fl (saltParams m.src (x0 k) (x1 k) (c k)) (z k) (t0 k) := by
    unfold spectrum
    rw [num_eq h v0, num_eq h v1, num_eq h vc, num_eq h (p := redshiftKey) vz, num_eq h (p := t0Key) vt]
  refine ⟨e, ?_⟩
  rw [e]
  obtain ⟨d, hd, e1⟩ := state_num h vz
  obtain ⟨d', hd', e2⟩ := state_num h vt
  rw [hd] at hd'; cases hd'
  obtain ⟨d', hd', e3⟩ := state_num h v0
  rw [hd] at hd'; cases hd'
  obtain ⟨d', hd', e4⟩ := state_num h v1
  rw [hd] at hd'; cases hd'
  obtain ⟨d', hd', e5⟩ := state_num h vc
  rw [hd] at hd'; cases hd'
  exact observes hF hS hz hd e1 e2 e3 e4 e5

theorem source_name {H' : Heap ℝ (Gens ρ)} {r : Heap.Run ℝ (Gens ρ)} (hS : Sampled G L tmin tmax n H' r) {nd : PNode ℝ (Gens ρ)} (h : H'[13]? = some nd) : nd.str = "source".toList := by
  obtain ⟨nd', h1, h2⟩ := core_at hS.cores (k := 13) rfl
  rw [h] at h1; cases h1
  exact hS.names 13 nd _ h (congrArg Core.label h2)

theorem same_model {lib : Sn.Lib} {m : Sn.Obj} (hS : Salt lib m) {x : Name} (hx : x = "source".toList) : { sniaModel (ρ := ρ) lib m with nodeString := x } = sniaModel (ρ := ρ) lib m := by
  subst hx
  unfold sniaModel
  rw [hS.node]

/-- C122. In every successful run of `simulate_lightcurves` on the example's supernovae, object `k` is a supernova with one redshift (its host's), one peak time, one stretch and one colour,
and the brightness that the distance of this redshift, this stretch and this colour give it; its lightcurve has one entry for every observation of its position in the time window; and
every entry is the measurement, in that observation's passband and with the noise of that observation, of the source's spectrum with exactly these parameters, at the time since
the peak in the frame of the supernova, redshifted by exactly this redshift. -/
theorem C122_lightcurves {lib : Sn.Lib} {m : Sn.Obj} {Fl : (Name → ℝ) → ℝ → ℝ → ℝ} (hF : PointSource lib Fl) (hS : Salt lib m) (hz : ∀ u, L.zinv u ≠ -1)
    {H : Heap ℝ (Gens ρ)} (hH : construct G L tmin tmax = .ok H) {draw : Gens ρ → ℝ × Gens ρ} {args : List SurveyArg} {saveCols paramCols : List Name}
    {offset : Option (List (Option ℝ))} {w : Gens ρ} {out : Outcome (Gens ρ)} (hstd : ∀ c ∈ paramCols, colName c ∉ standardCols) (hne : args ≠ [])
    (hgrid : ∀ a ∈ args, ∀ f pb, a.group.getItem f = .ok pb → ExactGrid pb) (hbuilt : ∀ a ∈ args, Built a.table)
    (hrad : ∀ a ∈ args, ∃ rad, a.table.radius = some rad ∧ 0 ≤ rad ∧ rad ≤ 180) (hsave : saveCols.Nodup ∧ ∀ c ∈ saveCols, c ∉ baseCols)
    (h : simulateFull (sniaModel lib m) () draw H 13 (n : Int) args saveCols paramCols offset w = .ok out) :
    ∃ (w0 : Gens ρ) (nobs : List Nat), nobs.length = n ∧ IsColumn out.table "nobs" n (fun k => nobs[k]?.map .int) ∧ out.world = afterDraws draw w0 nobs.sum ∧
      ∀ k, k < n → ∃ (z t0 x0 x1 c mAbs ra dec : ℝ) (obs : List (Nat × Nat)),
        (sampleValue out.sampled "host".toList "redshift".toList k = some (.scalar z) ∧ sampleValue out.sampled "source".toList "redshift".toList k = some (.scalar z) ∧
         sampleValue out.sampled "source".toList "t0".toList k = some (.scalar t0) ∧ sampleValue out.sampled "source".toList "x0".toList k = some (.scalar x0) ∧
         sampleValue out.sampled "source".toList "x1".toList k = some (.scalar x1) ∧ sampleValue out.sampled "source".toList "c".toList k = some (.scalar c) ∧
         sampleValue out.sampled "x0_func".toList "m_abs".toList k = some (.scalar mAbs) ∧
         sampleValue out.sampled "source".toList "ra".toList k = some (.scalar ra) ∧ sampleValue out.sampled "source".toList "dec".toList k = some (.scalar dec)) ∧
        x0 = (10 : ℝ) ^ (-0.4 * ((5 * Real.logb 10 |L.lumDist z| + 25) - 0.14 * x1 + 3.1 * c + mAbs - 10.635) : ℝ) ∧
        nobs[k]? = some obs.length ∧ obs.Pairwise (fun x y => x.1 < y.1 ∨ x.1 = y.1 ∧ x.2 < y.2) ∧
        (∀ j q, (j, q) ∈ obs ↔ ∃ a rad, args[j]? = some a ∧ a.table.radius = some rad ∧
          Match a.table (ra, dec) rad (winLo offset (some t0)) (winHi offset (some t0)) q) ∧
        (∀ c ∈ baseCols, (lightcurve out.nested k c).length = obs.length) ∧
        ∀ (i j q : Nat), obs[i]? = some (j, q) → ∃ a, args[j]? = some a ∧
          Measured a j q (supernova lib Fl (saltParams m.src x0 x1 c) z t0) (drawAt draw w0 ((nobs.take k).sum + i)) (lightcurve out.nested k) i := by
  have hH' := hH
  rw [construct_eq] at hH'
  cases hH'
  obtain ⟨-, -, run, hsp, hgs, -⟩ := FullRunProps.C119_sampled (graphOK G L tmin tmax) h
  have hsam := sampled hsp
  obtain ⟨z, mass, x1, c, mAbs, mu, t0, ra, dec, hra, hdec, x0, ⟨a1, a2, -, -, a5, -, a7, a8, -, a10, a11, a12, -, -, a15⟩, hi⟩ := C118_consistent hH hsp
  have hn : run.gs.numSamples = n := hsam.num
  rw [hgs] at a1 a2 a5 a7 a8 a10 a11 a12 a15 hn
  have hzk : ∀ k, k < n → z k ≠ -1 := by
    intro k hk
    obtain ⟨-, -, ⟨u, hu⟩, -⟩ := hi k hk
    rw [hu]; exact hz u
  obtain ⟨nd, N, w0, nobs, g1, g2, -, g4, g5, g6, g7⟩ := FullRunProps.C119_lightcurves (graphOK G L tmin tmax) (physical G L tmin tmax) (spectrum lib Fl m) hstd hne hgrid hbuilt
    hrad hsave h (by
      intro nd st k a hnd hk hst _
      rw [same_model hS (source_name hsam hnd)]
      exact EndToEndProps.observes_in (spectrum_observed hF hS hn a2 a10 a15 a5 a7 (by omega) (hzk k (by omega)) hst).2 a.group)
  have hN : N = n := by omega
  subst hN
  have hstr := source_name hsam g1
  refine ⟨w0, nobs, g4, g5, g6, ?_⟩
  intro k hk
  obtain ⟨st, ra', dec', t', obs, s1, s2, s3, s4, s5, s6, s7, s8, s9⟩ := g7 k hk
  rw [hstr] at s2 s3 s4
  have vra := column_sample hn a11 hk
  have vdec := column_sample hn a12 hk
  have vt := column_sample hn a10 hk
  rw [vra] at s2
  rw [vdec] at s3
  rw [vt] at s4
  have e1 : ra' = ra k := by cases s2; rfl
  have e2 : dec' = dec k := by cases s3; rfl
  have e3 : t' = some (t0 k) := by
    cases t' with
    | none => cases s4
    | some x => cases s4; rfl
  subst e1 e2 e3
  obtain ⟨i1, i2, -⟩ := hi k hk
  refine ⟨z k, t0 k, x0 k, x1 k, c k, mAbs k, ra k, dec k, obs, ⟨column_sample hn a1 hk, column_sample hn a2 hk, vt, column_sample hn a15 hk, column_sample hn a5 hk,
    column_sample hn a7 hk, column_sample hn a8 hk, vra, vdec⟩, ?_, s5, s6, s7, s8, ?_⟩
  · rw [i2, i1]
  · intro i j q hq
    obtain ⟨a, b1, b2⟩ := s9 i j q hq
    rw [(spectrum_observed (ρ := ρ) hF hS hn a2 a10 a15 a5 a7 hk (hzk k hk) s1).1] at b2
    exact ⟨a, b1, b2⟩

/-! ### Success -/

/-- Row by row a number or None. -/
def Cells (n : Nat) (v : Val ℝ) : Prop := ∀ k, k < n → ∀ x, (if n = 1 then some v else rowAt v k) = some x → x = .none ∨ ∃ y, x = .scalar y

theorem cells_pack (n : Nat) (f : Nat → ℝ) : Cells n (pack n f) := by
  intro k hk x hx
  unfold pack at hx
  by_cases h1 : n = 1
  · rw [if_pos h1, if_pos h1] at hx
    cases hx
    exact Or.inr ⟨_, rfl⟩
  · rw [if_neg h1, if_neg h1] at hx
    simp only [rowAt, List.getElem?_map, List.getElem?_range hk, Option.map_some, Option.some.injEq] at hx
    exact Or.inr ⟨_, hx.symm⟩

theorem cells_repeated {n : Nat} {v w : Val ℝ} (hv : v = .none ∨ ∃ y, v = .scalar y) (h : Repeated n v w) : Cells n w := by
  intro k hk x hx
  rcases h with ⟨h1, rfl⟩ | ⟨h1, rows, rfl, -, hr⟩
  · rw [if_pos h1] at hx
    cases hx
    exact hv
  · rw [if_neg h1] at hx
    rw [hr x (List.mem_of_getElem? hx)]
    exact hv

/-- Constants of the graph are numbers or None. -/
def constOK (c : Core ρ) : Bool := c.setters.all fun q => match q.2.src with | .const (.arr _) => false | _ => true

theorem consts_ok (G : RStream ρ U) (L : Laws U) (tmin tmax : ℝ) : (cores G L tmin tmax).all constOK = true := by krfl

theorem cells_value {H' : Heap ℝ (Gens ρ)} {r : Heap.Run ℝ (Gens ρ)} (hS : Sampled G L tmin tmax n H' r) :
    ∀ (k : Nat) nd, k < 14 → H'[k]? = some nd → ∀ q ∈ nd.setters, ∃ v, readParam r.gs nd.str q.1 = some v ∧ Cells n v := by
  intro k
  induction k using Nat.strong_induction_on with
  | _ k ih =>
    intro nd hk hnd q hq
    have hc : (cores G L tmin tmax)[k]? = some (core nd) := by rw [← hS.cores, List.getElem?_map, hnd]; rfl
    have hok : coreOK (cores G L tmin tmax) k (core nd) = true :=
      List.all_eq_true.1 (cores_ok G L tmin tmax) (core nd, k) (by rw [List.mem_zipIdx_iff_getElem?]; exact hc)
    have hcon : constOK (core nd) = true := List.all_eq_true.1 (consts_ok G L tmin tmax) _ (List.mem_of_getElem? hc)
    have hcon := List.all_eq_true.1 hcon q hq
    unfold coreOK at hok
    rw [Bool.and_eq_true] at hok
    have h2 := List.all_eq_true.1 hok.1 q hq
    rw [Bool.and_eq_true] at h2
    have heq := hS.eqs k nd hk hnd q.1 q.2 hq
    have hlink : ∀ d x, (decide (d < k) && (match (cores G L tmin tmax)[d]? with | some dc => (dc.setters.map (·.1)).contains x | none => false)) = true →
        ∀ dn w, H'[d]? = some dn → readParam r.gs dn.str x = some w → Cells n w := by
      intro d x h3 dn w hd hw
      rw [Bool.and_eq_true, decide_eq_true_eq] at h3
      have hdc : (cores G L tmin tmax)[d]? = some (core dn) := by rw [← hS.cores, List.getElem?_map, hd]; rfl
      rw [hdc] at h3
      have hm : x ∈ dn.setters.map (·.1) := by simpa [core] using h3.2
      obtain ⟨q', hq', rfl⟩ := List.mem_map.1 hm
      obtain ⟨v, e1, e2⟩ := ih d h3.1 dn (by omega) hd q' hq'
      rw [hw] at e1; cases e1
      exact e2
    cases hsrc : q.2.src with
    | const v =>
      rw [hsrc] at heq hcon
      obtain ⟨w, e1, e2⟩ := heq
      rw [hS.num] at e2
      refine ⟨w, e1, cells_repeated ?_ e2⟩
      cases v with
      | none => exact Or.inl rfl
      | scalar y => exact Or.inr ⟨y, rfl⟩
      | arr l => cases hcon
    | modelParam d x =>
      rw [hsrc] at heq h2
      obtain ⟨dn, w, e1, e2, e3⟩ := heq
      exact ⟨w, e3, hlink d x h2.2 dn w e1 e2⟩
    | funcNode d x =>
      rw [hsrc] at heq h2
      obtain ⟨dn, w, e1, e2, e3⟩ := heq
      exact ⟨w, e3, hlink d x h2.2 dn w e1 e2⟩
    | computeOut x =>
      rw [hsrc] at heq
      obtain ⟨args, res, u, w, e1, e2, e3, e4, e5⟩ := heq
      refine ⟨w, e5, ?_⟩
      obtain ⟨nd', f, w1, w2, f1, f2, f3⟩ := hS.once _ e1
      rw [hnd] at f1; cases f1
      have hne : (core nd).outputs ≠ [] := by
        intro h
        have h' : nd.outputs = [] := h
        rw [h'] at e3
        rcases e3 with ⟨h, -⟩ | ⟨-, _, i, -, -, h, -⟩
        · cases h
        · simp at h
      obtain ⟨ho, b, hb, ht⟩ := bodies_total G L tmin tmax k (core nd) hc hne
      have hb' : nd.body = some b := hb
      rw [f2] at hb'; cases hb'
      obtain ⟨w3, g, hg⟩ := ht w1 n args
      have f3' : f w1 n args = (w2, .ok res) := f3
      rw [hg] at f3'
      have hres : pack n g = res := by
        have := congrArg Prod.snd f3'
        simpa using this
      have ho' : nd.outputs = [resultName] := ho
      rw [ho'] at e3
      rcases e3 with ⟨-, h⟩ | ⟨h, -⟩
      · subst h
        rw [← hres, hS.num] at e4
        rw [stored_pack _ e4]
        exact cells_pack n g
      · simp at h
    | undefined =>
      rw [hsrc] at heq
      exact heq.elim

/-- Parameters of the example that may be asked for as columns. -/
def exampleCols : List Name :=
  ["source.redshift", "source.t0", "source.x0", "source.x1", "source.c", "host.redshift", "host.hostmass", "x0_func.distmod", "x0_func.m_abs"].map String.toList

/-- C122. For any number of supernovae, the example can be built, and `simulate_lightcurves` succeeds on it for any sound LSST surveys, whatever the random numbers, for a source with
non-negative flux and a redshift distribution above -1. -/
theorem C122_succeeds {lib : Sn.Lib} {m : Sn.Obj} {Fl : (Name → ℝ) → ℝ → ℝ → ℝ} (hF : PointSource lib Fl) (hS : Salt lib m) (hpos : ∀ params ph w, 0 ≤ Fl params ph w)
    (G : RStream ρ U) (L : Laws U) (tmin tmax : ℝ) (n : Nat) (hn : 0 < n) (hz : ∀ u, -1 < L.zinv u) (draw : Gens ρ → ℝ × Gens ρ) {args : List SurveyArg}
    {paramCols : List Name} (hcols : ∀ c ∈ paramCols, c ∈ exampleCols) {offset : Option (List (Option ℝ))} (hoff : offset = none ∨ ∃ before after, offset = some [before, after])
    (hgrid : ∀ a ∈ args, ∀ f pb, a.group.getItem f = .ok pb → ExactGrid pb) (hsound : ∀ a ∈ args, EndToEndProps.SoundOpsim a) (w : Gens ρ) :
    ∃ H out, construct G L tmin tmax = .ok H ∧ simulateFull (sniaModel lib m) () draw H 13 (n : Int) args [] paramCols offset w = .ok out := by
  obtain ⟨H, H', r, hH, hsp⟩ := C118_succeeds G L tmin tmax n hn w
  obtain ⟨z, mass, x1, c, mAbs, mu, t0, ra, dec, hra, hdec, x0, ⟨a1, a2, a3, a4, a5, a6, a7, a8, a9, a10, a11, a12, -, -, a15⟩, hi⟩ := C118_consistent hH hsp
  have hH' := hH
  rw [construct_eq] at hH'
  cases hH'
  have hsam := sampled hsp
  obtain ⟨nd, hnd, -⟩ := core_at hsam.cores (k := 13) rfl
  have hstr := source_name hsam hnd
  have hzk : ∀ k, k < n → -1 < z k := by
    intro k hk
    obtain ⟨-, -, ⟨u, hu⟩, -⟩ := hi k hk
    rw [hu]; exact hz u
  obtain ⟨hG', hsf, -⟩ := FullRunProps.sampleFrom_of (graphOK G L tmin tmax) hsp
  have hcomp := (NodeProps.C14_complete hG' (given := none) trivial hsf).2.2
  obtain ⟨out, ho⟩ := FullRunProps.C119_succeeds (m := sniaModel lib m) (noKw := ()) draw (graphOK G L tmin tmax) (physical G L tmin tmax) (n := (n : Int)) (by omega)
    (args := args) (paramCols := paramCols) (offset := offset) hsp hnd (spectrum lib Fl m)
    (by
      intro k hk node p x hx
      unfold sampleValue at hx
      cases hr : readParam r.gs node p with
      | none => rw [hr] at hx; split at hx <;> cases hx
      | some v =>
        rcases hcomp node p v hr with ⟨u, hu⟩ | ⟨id, nd', -, h2, rfl, st, h3⟩
        · exact hu.elim
        · have hid : id < 14 := by
            have hl : H'.length = 14 := by
              have := congrArg List.length hsam.cores
              simpa [cores] using this
            exact lt_of_lt_of_eq (List.getElem?_eq_some_iff.1 h2).1 hl
          obtain ⟨v', e1, e2⟩ := cells_value hsam id nd' hid h2 _ h3
          rw [hr] at e1; cases e1
          rw [hr, hsam.num] at hx
          exact e2 k (by omega) x hx)
    (by
      intro k hk
      rw [hstr]
      exact ⟨_, _, column_sample hsam.num a11 (by omega), column_sample hsam.num a12 (by omega)⟩)
    (by
      rcases hoff with h | ⟨b, a, h⟩
      · exact Or.inl h
      · refine Or.inr ⟨b, a, h, ?_⟩
        intro k hk
        rw [hstr]
        exact ⟨_, column_sample hsam.num a10 (by omega)⟩)
    (by
      intro c hc
      have := hcols c hc
      simp only [exampleCols, List.map_cons, List.map_nil, List.mem_cons, List.not_mem_nil, or_false] at this
      rcases this with rfl | rfl | rfl | rfl | rfl | rfl | rfl | rfl | rfl
      · exact ⟨_, _, _, rfl, a2⟩
      · exact ⟨_, _, _, rfl, a10⟩
      · exact ⟨_, _, _, rfl, a15⟩
      · exact ⟨_, _, _, rfl, a5⟩
      · exact ⟨_, _, _, rfl, a7⟩
      · exact ⟨_, _, _, rfl, a1⟩
      · exact ⟨_, _, _, rfl, a3⟩
      · exact ⟨_, _, _, rfl, a9⟩
      · exact ⟨_, _, _, rfl, a8⟩)
    (by
      intro c hc
      have := hcols c hc
      have key : ∀ c ∈ exampleCols, colName c ∉ standardCols := by decide
      exact key c this)
    (by
      intro st k hk hst
      have hk' : k < n := by omega
      rw [same_model hS hstr]
      obtain ⟨e1, e2⟩ := spectrum_observed (ρ := ρ) hF hS hsam.num a2 a10 a15 a5 a7 hk' (by have := hzk k hk'; intro h; linarith) hst
      refine ⟨fun a _ => EndToEndProps.observes_in e2 a.group, ?_⟩
      intro t w
      rw [e1]
      unfold supernova
      split
      · have := hzk k hk'
        unfold nanojansky
        have h2 := hpos (saltParams m.src (x0 k) (x1 k) (c k)) ((t - t0 k) / (1 + z k)) (w / (1 + z k))
        have h3 : 0 ≤ 1 + z k := by have := hzk k hk'; linarith
        positivity
      · exact le_rfl)
    hgrid hsound
  exact ⟨_, out, hH, ho⟩

/-! ### A concrete survey -/

/-- A source with the parameters of a SALT model: a flat spectrum of amplitude |x0| between 1 and 9. -/
noncomputable def flatSalt : Sn.Lib where
  names := ["x0".toList, "x1".toList, "c".toList]
  flux := fun s ts ws => .ok (ts.map fun _ => ws.map fun _ => |s "x0".toList|)
  minwave := 1
  maxwave := 9
  minphase := -20
  maxphase := 50

noncomputable def flatSn : Sn.Obj := Sn.init flatSalt "source".toList [] [] (fun _ => 0) none [("x0".toList, 0), ("x1".toList, 0), ("c".toList, 0)]

theorem flat_salt : Salt flatSalt flatSn where
  node := rfl
  named := by intro n; simp [flatSn, Sn.init, flatSalt, Dict.keys]
  known := by intro n hn; simpa [flatSn, Sn.init, flatSalt, Dict.keys] using hn
  extrap := rfl
  range := by simp only [flatSalt]; norm_num

/-- Three supernovae and one LSST survey: both theorems apply, and every object has as many entries in its lightcurve as the table says. -/
example (G : RStream ρ ℝ) (draw : Gens ρ → ℝ × Gens ρ) (w : Gens ρ) : ∃ H out,
    construct G ⟨id, id, fun u => |u|, id, id, fun z => 3000 * z⟩ 0 10 = .ok H ∧
    simulateFull (sniaModel flatSalt flatSn) () draw H 13 (3 : Nat) [EndToEndProps.lsstArg] [] ["source.x0".toList] (some [some 1, none]) w = .ok out ∧
    ∃ nobs : List Nat, IsColumn out.table "nobs" 3 (fun k => nobs[k]?.map .int) ∧ (lightcurve out.nested 2 "flux".toList).length = nobs[2]?.getD 7 := by
  have hF : PointSource flatSalt (fun s _ _ => |s "x0".toList|) := fun _ _ _ => rfl
  have harg : ∀ a ∈ [EndToEndProps.lsstArg], a = EndToEndProps.lsstArg := by intro a ha; simpa using ha
  obtain ⟨H, out, h1, h2⟩ := C122_succeeds hF flat_salt (fun _ _ _ => abs_nonneg _) G ⟨id, id, fun u => |u|, id, id, fun z => 3000 * z⟩ 0 10 3 (by norm_num)
    (by intro u; exact lt_of_lt_of_le (by norm_num) (abs_nonneg u)) draw (args := [EndToEndProps.lsstArg]) (paramCols := ["source.x0".toList]) (by decide)
    (offset := some [some 1, none]) (Or.inr ⟨_, _, rfl⟩) (by intro a ha; rw [harg a ha]; exact EndToEndProps.gGroup_grid)
    (by intro a ha; rw [harg a ha]; exact EndToEndProps.lsst_sound) w
  refine ⟨H, out, h1, h2, ?_⟩
  obtain ⟨w0, nobs, -, g2, -, g4⟩ := C122_lightcurves hF flat_salt
    (by intro u h; have : |u| = -1 := h; have := abs_nonneg u; linarith) h1 (by decide) (by simp)
    (by intro a ha; rw [harg a ha]; exact EndToEndProps.gGroup_grid) (by intro a ha; rw [harg a ha]; exact EndToEndProps.lsst_built)
    (by intro a ha; rw [harg a ha]; exact ⟨1, rfl, by norm_num, by norm_num⟩) ⟨List.nodup_nil, by simp⟩ h2
  refine ⟨nobs, g2, ?_⟩
  obtain ⟨_, _, _, _, _, _, _, _, obs, -, -, s1, -, -, s4, -⟩ := g4 2 (by norm_num)
  rw [s4 _ (by simp [baseCols]), s1]
  rfl

end LCL.SniaSurveyProps
