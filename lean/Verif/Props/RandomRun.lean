import Verif.Model.RandomRun
import Verif.Props.Composite

/-!
# Property C147: a random mixture in a whole run
-/

namespace LCL.RandomRunProps
open LCL LCL.SimSpec LCL.PhysSpec LCL.CompositeSpec LCL.EndToEnd LCL.EndToEndSpec LCL.FullRun LCL.FullRunSpec LCL.RandomRun LCL.CompositeProps
variable {V W R : Type}

theorem get_params (code : ℝ → Option Name) (k : Name) : ∀ p : Params ℝ, (readParams code p).get? k = (p.get? k).map (readBack code k) := by
  intro p
  induction p with
  | nil => rfl
  | cons q p ih =>
    obtain ⟨k', v⟩ := q
    unfold readParams at ih ⊢
    rw [List.map_cons, Dict.get?_cons, Dict.get?_cons, ih]
    split
    · rename_i h; subst h; rfl
    · rfl

theorem get_state (code : ℝ → Option Name) (st : SState ℝ) (node : Name) : (readState code st).get? node = (st.get? node).map (readParams code) :=
  GraphLemmas.get?_map_val (readParams code) st node

/-- What a parameter of the evaluated state is: the sampled number, or, under `selected_object`, the string it stands for. -/
theorem read_param {code : ℝ → Option Name} {st : SState ℝ} {node k : Name} :
    ((readState code st).get? node).bind (·.get? k) = ((st.get? node).bind (·.get? k)).map (readBack code k) := by
  rw [get_state]
  cases st.get? node with
  | none => rfl
  | some p => exact get_params code k p

/-- C147, any model. With strings among the sampled parameters a whole run records, in row `k` and for every matching observation, the flux of the specification in
sample `k`, read with the strings. -/
theorem C147_named {σ : Type} {code : ℝ → Option Name} {mk : Heap ℝ σ → PNode ℝ σ → PhysModel V W σ ℝ} {isBand : Bool} {noKw : W} {draw : σ → ℝ × σ} {H : Heap ℝ σ}
    (hG : NodeSpec.GraphOK H) {root : NodeId} {objs : List NodeId} (hph : Physical H root) {n : Int} {args : List SurveyArg} {saveCols paramCols : List Name}
    {offset : Option (List (Option ℝ))} {w : σ} {out : Outcome σ} (known : Name → Prop) (c : SState ℝ → Effect V σ ℝ → Name → ℝ → ℝ) (B : SurveyArg → SState ℝ → Name → ℝ → ℝ)
    (hstd : ∀ c ∈ paramCols, colName c ∉ standardCols) (hne : args ≠ []) (hbuilt : ∀ a ∈ args, ObsSpec.Built a.table)
    (hrad : ∀ a ∈ args, ∃ rad, a.table.radius = some rad ∧ 0 ≤ rad ∧ rad ≤ 180) (hsave : saveCols.Nodup ∧ ∀ c ∈ saveCols, c ∉ baseCols)
    (h : simulateNamed code mk isBand noKw draw H root objs n args saveCols paramCols offset w = .ok out)
    {nd : PNode ℝ σ} (hnd : out.graph[root]? = some nd) (hone : OnePerTime noKw (mk out.graph nd))
    (hB : ∀ st (k : Nat) a, (k : Int) < n → StateOf out.sampled k st → a ∈ args →
      Emits noKw a.group (readState code st) known (c st) (mk out.graph nd) (B a st)) :
    ∃ (N : Nat) (w0 : σ) (nobs : List Nat), n = (N : Int) ∧ nobs.length = N ∧ IsColumn out.table "nobs" N (fun k => nobs[k]?.map .int) ∧
      out.world = PhotSpec.afterDraws draw w0 nobs.sum ∧
      ∀ k, k < N → ∃ (st : SState ℝ) (ra dec : ℝ) (t0 : Option ℝ) (obs : List (Nat × Nat)), StateOf out.sampled k st ∧
        sampleValue out.sampled nd.str "ra".toList k = some (.scalar ra) ∧ sampleValue out.sampled nd.str "dec".toList k = some (.scalar dec) ∧
        sampleValue out.sampled nd.str "t0".toList k = some (cellOf t0) ∧
        nobs[k]? = some obs.length ∧ obs.Pairwise (fun x y => x.1 < y.1 ∨ x.1 = y.1 ∧ x.2 < y.2) ∧
        (∀ j q, (j, q) ∈ obs ↔ ∃ a rad, args[j]? = some a ∧ a.table.radius = some rad ∧
          ObsSpec.Match a.table (ra, dec) rad (winLo offset t0) (winHi offset t0) q) ∧
        (∀ c ∈ baseCols, (lightcurve out.nested k c).length = obs.length) ∧
        ∀ (i j q : Nat), obs[i]? = some (j, q) → ∃ a, args[j]? = some a ∧
          MeasuredBy a j q (fun f t x => x = B a st f t) (PhotSpec.drawAt draw w0 ((nobs.take k).sum + i)) (lightcurve out.nested k) i := by
  obtain ⟨nd', N, w0, nobs, g1, g2, -, g4, g5, g6, g7⟩ := FullRunProps.C119_fluxes hG hph (fun a st f t x => x = B a st f t) hstd hne hbuilt hrad hsave h
    (fun nd' h' => by
      rw [hnd] at h'; cases h'
      intro a ts fs st r p r' hp
      exact sized_of hone a ts fs (readState code st) r p r' hp)
    (fun nd' st k a h' hk hst ha => by
      rw [hnd] at h'; cases h'
      intro ts fs r p r' hp
      exact fluxes_emits (hB st k a hk hst ha) ts fs r p r' hp)
  rw [hnd] at g1; cases g1
  exact ⟨N, w0, nobs, g2, g4, g5, g6, g7⟩

/-- The position of the selected name, as the code's dictionary of objects gives it. -/
noncomputable def place (code : ℝ → Option Name) (node : Name) (names : List Name) (st : SState ℝ) : Nat :=
  match ((st.get? node).bind (·.get? "selected_object".toList)) with
  | some (.num x) => match code x with
    | some nm => names.idxOf nm
    | none => 0
  | _ => 0

/-- C147. In a whole run of a random mixture, whatever object was selected for sample `k`, every recorded flux of row `k` is the flux of that object, and of that object
only, in sample `k`, times the factors of the mixture's own effects. The selected name is the sampled value of `selected_object`, the names are pairwise different and stand
for the objects in order; only the object selected for a sample must be one whose fluxes are known. -/
theorem C147_mixture {σ : Type} {code : ℝ → Option Name} {mk : Heap ℝ σ → PNode ℝ σ → PhysModel V W σ ℝ} {isBand : Bool} {noKw : W} {draw : σ → ℝ × σ} {H : Heap ℝ σ}
    (hG : NodeSpec.GraphOK H) {root : NodeId} {objs : List NodeId} (hph : Physical H root) {n : Int} {args : List SurveyArg} {saveCols paramCols : List Name}
    {offset : Option (List (Option ℝ))} {w : σ} {out : Outcome σ} (known : Name → Prop) (c : SState ℝ → Effect V σ ℝ → Name → ℝ → ℝ)
    (hstd : ∀ c ∈ paramCols, colName c ∉ standardCols) (hne : args ≠ []) (hbuilt : ∀ a ∈ args, ObsSpec.Built a.table)
    (hrad : ∀ a ∈ args, ∃ rad, a.table.radius = some rad ∧ 0 ≤ rad ∧ rad ≤ 180) (hsave : saveCols.Nodup ∧ ∀ c ∈ saveCols, c ∉ baseCols)
    (h : simulateNamed code mk isBand noKw draw H root objs n args saveCols paramCols offset w = .ok out)
    {nd : PNode ℝ σ} (hnd : out.graph[root]? = some nd)
    {node : Name} {setters : Dict Name V} {objects : List (PhysModel V W σ ℝ)} {names : List Name} {effects : List (Effect V σ ℝ)}
    (hmk : mk out.graph nd = .random node setters objects names effects) (hone : OnePerTime noKw (mk out.graph nd)) (hnames : names.Nodup)
    (B : Nat → SurveyArg → SState ℝ → Name → ℝ → ℝ)
    (hsel : ∀ k : Nat, (k : Int) < n → ∃ x nm, sampleValue out.sampled node "selected_object".toList k = some (.scalar x) ∧ code x = some nm ∧ nm ∈ names)
    (hB : ∀ st (k : Nat) a (q : Nat) x, (k : Int) < n → StateOf out.sampled k st → a ∈ args →
      sampleValue out.sampled node "selected_object".toList k = some (.scalar x) → names[q]? = code x →
      (∃ o, objects[q]? = some o ∧ Emits noKw a.group (readState code st) known (c st) o (B q a st)) ∧
      ∀ p, (readState code st).get? node = some p → ∀ e ∈ effects, ScalesBand e p (c st e)) :
    ∃ (N : Nat) (w0 : σ) (nobs : List Nat), n = (N : Int) ∧ nobs.length = N ∧ IsColumn out.table "nobs" N (fun k => nobs[k]?.map .int) ∧
      out.world = PhotSpec.afterDraws draw w0 nobs.sum ∧
      ∀ k, k < N → ∃ (st : SState ℝ) (ra dec : ℝ) (t0 : Option ℝ) (obs : List (Nat × Nat)) (x : ℝ) (chosen : Nat) (nm : Name), StateOf out.sampled k st ∧
        sampleValue out.sampled node "selected_object".toList k = some (.scalar x) ∧ code x = some nm ∧ names[chosen]? = some nm ∧
        sampleValue out.sampled nd.str "ra".toList k = some (.scalar ra) ∧ sampleValue out.sampled nd.str "dec".toList k = some (.scalar dec) ∧
        sampleValue out.sampled nd.str "t0".toList k = some (cellOf t0) ∧
        nobs[k]? = some obs.length ∧
        (∀ j q, (j, q) ∈ obs ↔ ∃ a rad, args[j]? = some a ∧ a.table.radius = some rad ∧
          ObsSpec.Match a.table (ra, dec) rad (winLo offset t0) (winHi offset t0) q) ∧
        (∀ c ∈ baseCols, (lightcurve out.nested k c).length = obs.length) ∧
        ∀ (i j q : Nat), obs[i]? = some (j, q) → ∃ a, args[j]? = some a ∧
          MeasuredBy a j q (fun f t y => y = factors (c st) effects f t * B chosen a st f t) (PhotSpec.drawAt draw w0 ((nobs.take k).sum + i)) (lightcurve out.nested k) i := by
  have hread : ∀ st (k : Nat), (k : Int) < n → StateOf out.sampled k st → ∃ p x nm, (readState code st).get? node = some p ∧
      p.get? "selected_object".toList = some (.str nm) ∧ sampleValue out.sampled node "selected_object".toList k = some (.scalar x) ∧ code x = some nm ∧
      names[place code node names st]? = some nm := by
    intro st k hk hst
    obtain ⟨x, nm, h1, h2, h3⟩ := hsel k hk
    have h4 : (st.get? node).bind (·.get? "selected_object".toList) = some (.num x) := by rw [hst, h1]; rfl
    have h5 : ((readState code st).get? node).bind (·.get? "selected_object".toList) = some (.str nm) := by
      rw [read_param, h4, Option.map_some]
      simp only [readBack, if_true, h2]
    cases hp : (readState code st).get? node with
    | none => rw [hp] at h5; cases h5
    | some p =>
      rw [hp, Option.bind_some] at h5
      refine ⟨p, x, nm, rfl, h5, h1, h2, ?_⟩
      unfold place
      rw [h4]
      dsimp only
      rw [h2]
      exact List.getElem?_idxOf h3
  obtain ⟨N, w0, nobs, g2, g4, g5, g6, g7⟩ := C147_named hG hph known c (fun a st f t => factors (c st) effects f t * B (place code node names st) a st f t) hstd hne hbuilt
    hrad hsave h hnd hone (by
      intro st k a hk hst ha
      obtain ⟨p, x, nm, h1, h2, h3, h4, h5⟩ := hread st k hk hst
      obtain ⟨⟨o, ho, hE⟩, heff⟩ := hB st k a (place code node names st) x hk hst ha h3 (by rw [h5, h4])
      rw [hmk]
      exact .random h1 h2 hnames h5 ho hE (heff p h1))
  refine ⟨N, w0, nobs, g2, g4, g5, g6, fun k hk => ?_⟩
  obtain ⟨st, ra, dec, t0, obs, a1, a2, a3, a4, a5, -, a6, a7, a8⟩ := g7 k hk
  obtain ⟨p, x, nm, -, -, h3, h4, h5⟩ := hread st k (by omega) a1
  exact ⟨st, ra, dec, t0, obs, x, _, nm, a1, h3, h4, h5, a2, a3, a4, a5, a6, a7, a8⟩

/-! ### A concrete run: a mixture of a star and a dimmed lamp, the lamp being selected -/

noncomputable def mix : PhysModel Unit Unit Nat ℝ := .random "mix".toList [] [.sed star, .band lamp] ["a star".toList, "a lamp".toList] []

open Classical in
/-- 0 stands for the star and 1 for the lamp. -/
noncomputable def exCode (x : ℝ) : Option Name := if x = 0 then some "a star".toList else if x = 1 then some "a lamp".toList else none

noncomputable def mixConsts : Name × List (Name × ℝ) :=
  ("mix".toList, [("ra".toList, 0), ("dec".toList, 0), ("redshift".toList, 1), ("t0".toList, 3), ("selected_object".toList, 1)])

theorem mix_sampled : ConstGraph.AllSampled [mixConsts, starConsts, lampConsts] [1, 2] := by
  refine ⟨_, rfl, rfl, ?_, ?_⟩
  · intro q hq
    simp only [List.mem_cons, List.not_mem_nil, or_false] at hq
    rcases hq with rfl | rfl | rfl <;> rfl
  · intro e he
    replace he : e ∈ [("star".toList, ConstGraph.cParams starConsts.2), ("lamp".toList, ConstGraph.cParams lampConsts.2), ("mix".toList, ConstGraph.cParams mixConsts.2)] := he
    simp only [List.mem_cons, List.not_mem_nil, or_false] at he
    rcases he with rfl | rfl | rfl
    · exact ⟨starConsts, by simp, rfl⟩
    · exact ⟨lampConsts, by simp, rfl⟩
    · exact ⟨mixConsts, by simp, rfl⟩

theorem mix_size : OnePerTime () mix := by
  refine (C126_sizes ()).2.2.2 _ _ _ _ _ ?_ (by intro e he; cases he)
  intro o ho
  simp only [List.mem_cons, List.not_mem_nil, or_false] at ho
  rcases ho with rfl | rfl
  · exact (C126_sizes ()).1 star
  · refine (C126_sizes ()).2.1 lamp ?_
    intro ts fs st r out h
    unfold BandModel.evaluateBandfluxesSingle at h
    cases hp : localParams st lamp.nodeString with
    | error e => rw [hp] at h; cases h
    | ok p =>
      rw [hp] at h
      simp only [lamp, applyBandEffects, constantDimming] at h
      cases hf : fluxFraction p with
      | error e => rw [hf] at h; cases h
      | ok f => rw [hf] at h; cases h; simp

/-- What the lamp emits in a state with its constant, the strings having been read. -/
theorem lamp_emits (st : SState ℝ) (g : PassbandGroup ℝ) (h : (st.get? "lamp".toList).bind (·.get? "flux_fraction".toList) = some (.num 0.5)) :
    Emits () g (readState exCode st) (· ∈ ["g".toList]) (fun _ _ _ => 0.5) (.band lamp : PhysModel Unit Unit Nat ℝ)
      (fun f t => factors (fun _ _ _ => 0.5) lamp.effects f t * 7) := by
  have h1 : ((readState exCode st).get? "lamp".toList).bind (·.get? "flux_fraction".toList) = some (.num 0.5) := by
    rw [read_param, h, Option.map_some]
    simp only [readBack]
    rw [if_neg (by decide)]
  cases hp : (readState exCode st).get? "lamp".toList with
  | none => rw [hp] at h1; cases h1
  | some p =>
    rw [hp, Option.bind_some] at h1
    refine .band (B := fun _ _ => 7) hp ?_ ?_
    · intro ts fs r hl
      refine ⟨?_, fun _ => ⟨_, rfl⟩⟩
      intro out ho
      cases ho
      congr 1
      refine List.ext_getElem (by simp [hl]) fun i i1 i2 => by simp
    · intro e he
      have : e = constantDimming () false := by simpa [lamp] using he
      subst this
      exact C126_dimming () false h1

theorem exCode_one : exCode 1 = some "a lamp".toList := by
  unfold exCode
  rw [if_neg (by norm_num), if_pos rfl]

theorem mix_emits (st : SState ℝ) (g : PassbandGroup ℝ) (h : ∀ q ∈ [mixConsts, starConsts, lampConsts], ∀ c ∈ q.2, (st.get? q.1).bind (·.get? c.1) = some (.num c.2)) :
    Emits () g (readState exCode st) (· ∈ ["g".toList]) (fun _ _ _ => 0.5) mix (fun _ _ => 3.5) := by
  have hl := lamp_emits st g (h lampConsts (by simp) ("flux_fraction".toList, 0.5) (by simp [lampConsts]))
  have hs : ((readState exCode st).get? "mix".toList).bind (·.get? "selected_object".toList) = some (.str "a lamp".toList) := by
    have h0 : (st.get? "mix".toList).bind (·.get? "selected_object".toList) = some (.num 1) := h mixConsts (by simp) ("selected_object".toList, 1) (by simp [mixConsts])
    rw [read_param, h0, Option.map_some]
    simp only [readBack, if_true, exCode_one]
  cases hp : (readState exCode st).get? "mix".toList with
  | none => rw [hp] at hs; cases hs
  | some p =>
    rw [hp, Option.bind_some] at hs
    have := Emits.random (setters := []) (objects := [.sed star, .band lamp]) (names := ["a star".toList, "a lamp".toList]) (effects := []) (i := 1) hp hs (by decide) rfl rfl hl
      (by intro e he; cases he)
    have e : (fun (_ : Name) (_ : ℝ) => (3.5 : ℝ)) = fun f t =>
        factors (fun _ _ _ => 0.5) ([] : List (Effect Unit Nat ℝ)) f t * (factors (fun _ _ _ => 0.5) lamp.effects f t * 7) := by
      funext f t
      simp only [factors, lamp, List.map_nil, List.prod_nil, List.map_cons, List.prod_cons]
      norm_num
    rw [e]
    exact this

/-- The lamp being selected in both samples, a visit that matches records 0.5 · 7, whatever the star gives. -/
example (draw : Nat → ℝ × Nat) : ∃ out : Outcome Nat,
    simulateNamed exCode (fun _ _ => mix) false () draw (ConstGraph.before [mixConsts, starConsts, lampConsts]) 0 [1, 2] 2 [EndToEndProps.lsstArg] [] [] (some [some 1, none]) 4 = .ok out ∧
    ∃ (nobs : List Nat) (obs : List (Nat × Nat)), nobs[0]? = some obs.length ∧ ∀ (i j q : Nat), obs[i]? = some (j, q) →
      (lightcurve out.nested 0 "flux_perfect".toList)[i]? = some (.num 3.5) := by
  have hn : ∀ q ∈ [mixConsts, starConsts, lampConsts], (q.2.map (·.1)).Nodup := by
    intro q hq
    simp only [List.mem_cons, List.not_mem_nil, or_false] at hq
    rcases hq with rfl | rfl | rfl
    · simp only [mixConsts, List.map_cons, List.map_nil]; decide
    · simp only [starConsts, List.map_cons, List.map_nil]; decide
    · simp only [lampConsts, List.map_cons, List.map_nil]; decide
  have hE : ConstGraph.Enough mixConsts.2 := by
    intro p hp
    simp only [List.mem_cons, List.not_mem_nil, or_false] at hp
    rcases hp with rfl | rfl | rfl | rfl
    exacts [⟨0, by simp [mixConsts]⟩, ⟨0, by simp [mixConsts]⟩, ⟨3, by simp [mixConsts]⟩, ⟨1, by simp [mixConsts]⟩]
  obtain ⟨hph, out, ho, hgr, hg0, hval⟩ := ConstGraph.g_run hn mix_sampled hE draw (isBand := false)
    (ev := fun _ _ a ts fs st r => evalPhys mix () a.group ts fs (readState exCode st) r)
    (fun st hst => by
      intro ts fs r hl hfs
      exact answers_emits (mix_emits st _ hst) (by intro f t _; norm_num) ts fs r hl hfs)
  refine ⟨out, ho, ?_⟩
  have hst : ∀ st (k : Nat), (k : Int) < 2 → StateOf out.sampled k st → ∀ q ∈ [mixConsts, starConsts, lampConsts], ∀ c ∈ q.2, (st.get? q.1).bind (·.get? c.1) = some (.num c.2) := by
    intro st k hk hso q hq c hc
    rw [hso q.1 c.1, hval q hq c hc k hk]
    rfl
  have hsel : ∀ k : Nat, (k : Int) < 2 → sampleValue out.sampled "mix".toList "selected_object".toList k = some (.scalar 1) :=
    hval mixConsts (by simp) ("selected_object".toList, 1) (by simp [mixConsts])
  obtain ⟨N, w0, nobs, hN, -, -, -, hk⟩ := C147_mixture (code := exCode) (mk := fun _ _ => mix) (isBand := false) (noKw := ()) (ConstGraph.g_graph hn) hph (· ∈ ["g".toList])
    (fun _ _ _ _ => 0.5) (by intro c hc; cases hc) (by simp)
    (by intro a ha; rw [List.mem_singleton] at ha; subst ha; exact EndToEndProps.lsst_built)
    (by intro a ha; rw [List.mem_singleton] at ha; subst ha; exact ⟨1, rfl, by norm_num, by norm_num⟩) (by simp) ho hg0 rfl mix_size (by decide)
    (fun _ _ _ f t => factors (fun _ _ _ => 0.5) lamp.effects f t * 7)
    (fun k hk => ⟨1, _, hsel k hk, exCode_one, by simp⟩)
    (by
      intro st k a q x hk hso ha hx hq
      rw [hsel k hk] at hx
      cases hx
      rw [exCode_one] at hq
      have : q = 1 := by
        match q, hq with
        | 0, hq => exact absurd (Option.some.inj hq) (by decide)
        | 1, _ => rfl
        | q + 2, hq => cases hq
      subst this
      exact ⟨⟨_, rfl, lamp_emits st _ (hst st k hk hso lampConsts (by simp) ("flux_fraction".toList, 0.5) (by simp [lampConsts]))⟩, by intro p _ e he; cases he⟩)
  obtain ⟨st, ra, dec, t0, obs, x, q', nm, -, -, -, -, -, -, -, h1, -, h2, h3⟩ := hk 0 (by omega)
  refine ⟨nobs, obs, h1, fun i j q hq => ?_⟩
  obtain ⟨a, ha, t, f, x, noise, err, m1, m2, m3, -, -, -, -, -, -, m4, -⟩ := h3 i j q hq
  rw [m4, m3]
  simp only [factors, lamp, List.map_nil, List.prod_nil, List.map_cons, List.prod_cons]
  norm_num

end LCL.RandomRunProps
