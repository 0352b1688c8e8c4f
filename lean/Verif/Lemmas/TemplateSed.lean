import Verif.Spec.TemplateSed
import Verif.Lemmas.Template
import Verif.Props.PassbandGroup
import Verif.Props.Bandfluxes

/-!
# Lemmas for C50
-/

namespace LCL.TemplateSedLemmas
open LCL LCL.TemplateSedSpec LCL.PassbandGroupProps LCL.TemplateLemmas LCL.PassbandLemmas LCL.PassbandProps

/-! ## The curves of a constructed template -/

theorem move_keys (s : ℝ) (c : Dict Name (List (ℝ × ℝ))) : Dict.keys (lcMove s c) = Dict.keys c := by
  unfold lcMove Dict.keys
  rw [List.map_map]
  rfl

theorem periodic_keys {c c' : Dict Name (List (ℝ × ℝ))} {t0 a b : ℝ} (h : lcPeriodic c t0 = .ok (c', a, b)) : Dict.keys c' = Dict.keys c := by
  unfold lcPeriodic at h
  split at h
  · cases h
  · split at h
    · cases h
    · split at h
      · cases h
      · split at h
        · split at h
          · cases h
          · split at h
            · cases h; rfl
            · split at h
              · cases h
              · cases h; exact move_keys _ _
        · cases h

theorem split_nodup {s : LcSource} {d : Dict Name LcInput} (h : lcSplit s = .ok d) (hp : ProperSource s) : d.keys.Nodup := by
  cases s with
  | dict d' => unfold lcSplit at h; cases h; exact hp
  | array cols rows =>
    unfold lcSplit at h
    dsimp only at h
    split at h
    · cases h
    · injection h with h
      subst h
      unfold Dict.keys
      rw [List.map_map]
      have : ((fun p : Name × LcInput => p.1) ∘ fun f => (f, (⟨2, lcRowsOf rows f⟩ : LcInput))) = id := rfl
      rw [this, List.map_id]
      exact BandfluxProps.nodup_npUnique _
  | other => cases h

theorem finish_eval {curves : Dict Name (List (ℝ × ℝ))} {t0 : ℝ} {period : Option ℝ} {mags : Bool} {baseline : Option (Dict Name ℝ)} {d : LcData}
    (h : lcFinish curves t0 period mags baseline = .ok d) :
    ∀ f ∈ d.curves.keys, ∃ v : ℝ → ℝ, ∀ times, lcEval d times f = .ok (times.map v) := by
  obtain ⟨e1, _, _, e4, e5, e6, _⟩ := finish_spec h
  intro f hf
  rw [e1] at hf
  obtain ⟨p, hp, rfl⟩ := List.mem_map.1 hf
  cases hc : curves.get? p.1 with
  | none => rw [Dict.get?_eq_none_iff] at hc; exact absurd hf hc
  | some lc =>
    have hne := e6 _ (Dict.mem_of_get? hc)
    dsimp only at hne
    obtain ⟨a, ha⟩ : ∃ a, lc.head? = some a := by
      cases lc with
      | nil => exact absurd rfl hne
      | cons a l => exact ⟨a, rfl⟩
    obtain ⟨b, hb⟩ : ∃ b, lc.getLast? = some b := ⟨lc.getLast hne, List.getLast?_eq_some_getLast hne⟩
    have h4 := e4 p.1
    have h5 := e5 p.1
    rw [hc] at h4 h5
    rw [Option.bind_some, ha, Option.map_some] at h4
    rw [Option.bind_some, hb, Option.map_some] at h5
    refine ⟨fun t => lcValue lc a.1 b.1 ((d.baseline.get? p.1).getD 0) (lcWrap d.period t), fun times => ?_⟩
    unfold lcEval
    rw [e1, hc, h4, h5]

theorem init_data {s : LcSource} {t0 : ℝ} {periodic mags : Bool} {b : Option (Dict Name ℝ)} {d : LcData}
    (h : lcInit s t0 periodic mags b = .ok d) (hp : ProperSource s) :
    d.curves.keys.Nodup ∧ ∀ f ∈ d.curves.keys, ∃ v : ℝ → ℝ, ∀ times, lcEval d times f = .ok (times.map v) := by
  unfold lcInit at h
  cases h1 : lcSplit s with
  | error e => rw [h1] at h; cases h
  | ok dd =>
    rw [h1] at h
    dsimp only at h
    cases h2 : lcShiftAll t0 mags dd with
    | error e => rw [h2] at h; cases h
    | ok curves =>
      rw [h2] at h
      dsimp only at h
      have hk : Dict.keys curves = Dict.keys dd := by
        rw [(shiftAll_spec h2).1]
        unfold Dict.keys
        rw [List.map_map]
        rfl
      have hn := split_nodup h1 hp
      split at h
      · split at h
        · cases h
        · rename_i r hr
          obtain ⟨c', a, b'⟩ := r
          refine ⟨?_, finish_eval h⟩
          rw [(finish_spec h).1]
          dsimp only
          rw [periodic_keys hr, hk]
          exact hn
      · refine ⟨?_, finish_eval h⟩
        rw [(finish_spec h).1, hk]
        exact hn

/-! ## The marks -/

theorem gather_map_pairs (p : ℝ × ℝ → Bool) (t : List (ℝ × ℝ)) : gather (t.map p) (t.map (·.1)) = (t.filter p).map (·.1) := by
  unfold gather
  induction t with
  | nil => rfl
  | cons a t ih =>
    simp only [List.map_cons, List.zip_cons_cons, List.filter_cons]
    by_cases h : p a = true
    · rw [if_pos h, if_pos h, List.map_cons, List.map_cons, ih]
    · rw [if_neg h, if_neg h, ih]

theorem mem_sigWaves {pb : Passband ℝ} (hw : pb.waves = pb.table.map (·.1)) (w : ℝ) :
    w ∈ sigWaves pb ↔ ∃ T, (w, T) ∈ pb.table ∧ 1 / 10 ^ 5 < T := by
  unfold sigWaves
  rw [hw, gather_map_pairs, List.mem_map]
  constructor
  · rintro ⟨p, hp, rfl⟩
    rw [List.mem_filter] at hp
    exact ⟨p.2, hp.1, by simpa using hp.2⟩
  · rintro ⟨T, h1, h2⟩
    exact ⟨(w, T), List.mem_filter.2 ⟨h1, by simpa using h2⟩, rfl⟩

theorem getItem_member {g : PassbandGroup ℝ} (hr : Reachable g) {f : Name} {pb : Passband ℝ} (h : g.getItem f = .ok pb) :
    g.passbands.get? pb.fullName = some pb ∧ pb ∈ g.passbands.values ∧ Usable pb := by
  obtain ⟨_, h2⟩ := (C30_bandflux_partial g hr f []).1 pb h
  exact ⟨h2, List.mem_map.2 ⟨_, Dict.mem_of_get? h2, rfl⟩, ((reachable_good hr).names _ _ (Dict.mem_of_get? h2)).2⟩

theorem search_inj {l : List ℝ} (hs : l.Pairwise (· < ·)) {w : ℝ} (hw : w ∈ l) {i : Nat} {x : ℝ} (hx : l[i]? = some x) :
    searchLeft l w = i ↔ w = x := by
  have h1 := searchLeft_mem l w hs hw
  constructor
  · intro h
    rw [h, hx] at h1
    exact (Option.some.inj h1).symm
  · intro h
    subst h
    by_contra hne
    have hs' : l.Nodup := hs.imp (fun h => ne_of_lt h)
    obtain ⟨l1, e1⟩ := List.getElem?_eq_some_iff.1 h1
    obtain ⟨l2, e2⟩ := List.getElem?_eq_some_iff.1 hx
    exact hne ((List.Nodup.getElem_inj_iff hs').1 (e1.trans e2.symm))

open Classical in
theorem marks_spec {g : PassbandGroup ℝ} (hr : Reachable g) (hsep : Separated g) {f : Name} {row : List Bool} (h : sedMarks g f = .ok row) :
    (∃ pb, g.getItem f = .ok pb) ∧ row = g.waves.map fun w => decide (Significant g f w) := by
  unfold sedMarks at h
  cases hg : g.getItem f with
  | error e => rw [hg] at h; cases h
  | ok pb =>
    rw [hg] at h
    dsimp only at h
    refine ⟨⟨pb, rfl⟩, ?_⟩
    obtain ⟨hm1, hm2, hu⟩ := getItem_member hr hg
    obtain ⟨s1, s2, _, _⟩ := C29_shared_grid_partial g hr hsep
    split at h
    · injection h with h
      subst h
      apply List.ext_getElem?
      intro i
      by_cases hi : i < g.waves.length
      · rw [List.getElem?_map, List.getElem?_range hi, List.getElem?_map, List.getElem?_eq_getElem hi, Option.map_some, Option.map_some]
        congr 1
        rw [decide_eq_decide, List.mem_map]
        have hi' : g.waves[i]? = some g.waves[i] := List.getElem?_eq_getElem hi
        constructor
        · rintro ⟨w, hw, e⟩
          obtain ⟨T, h1, h2⟩ := (mem_sigWaves hu.2.2.2 w).1 hw
          have hwm : w ∈ g.waves := (s2 w).2 ⟨pb, hm2, by rw [hu.2.2.2]; exact List.mem_map.2 ⟨_, h1, rfl⟩⟩
          rw [← (search_inj s1 hwm hi').1 e]
          exact ⟨pb, T, hg, h1, h2⟩
        · rintro ⟨pb', T, h0, h1, h2⟩
          rw [hg] at h0
          injection h0 with h0
          subst h0
          refine ⟨_, (mem_sigWaves hu.2.2.2 _).2 ⟨T, h1, h2⟩, (search_inj s1 (List.getElem_mem hi) hi').2 rfl⟩
      · rw [List.getElem?_eq_none (by simpa using hi), List.getElem?_eq_none (by simpa using hi)]
    · cases h

open Classical in
theorem markAll_spec {g : PassbandGroup ℝ} (hr : Reachable g) (hsep : Separated g) : ∀ {fs : List Name} {rows : List (List Bool)},
    sedMarkAll g fs = .ok rows →
    (∀ f ∈ fs, ∃ pb, g.getItem f = .ok pb) ∧ rows = fs.map fun f => g.waves.map fun w => decide (Significant g f w)
  | [], rows, h => by unfold sedMarkAll at h; cases h; exact ⟨by simp, rfl⟩
  | f :: fs, rows, h => by
    unfold sedMarkAll at h
    cases h1 : sedMarks g f with
    | error e => rw [h1] at h; cases h
    | ok row =>
      rw [h1] at h
      dsimp only at h
      cases h2 : sedMarkAll g fs with
      | error e => rw [h2] at h; cases h
      | ok rest =>
        rw [h2] at h
        injection h with h
        subst h
        obtain ⟨a1, a2⟩ := marks_spec hr hsep h1
        obtain ⟨b1, b2⟩ := markAll_spec hr hsep h2
        refine ⟨?_, by rw [List.map_cons, ← a2, ← b2]⟩
        intro f' hf'
        rcases List.mem_cons.1 hf' with e | e
        · rw [e]; exact a1
        · exact b1 f' e

theorem countP_one {p : Name → Bool} : ∀ {fs : List Name} {f : Name}, fs.Nodup → f ∈ fs → p f = true →
    (fs.countP p = 1 ↔ ∀ f' ∈ fs, f' ≠ f → p f' = false)
  | [], f, _, h, _ => by cases h
  | x :: fs, f, hn, hf, hp => by
    have hn' := List.nodup_cons.1 hn
    rw [List.countP_cons]
    rcases List.mem_cons.1 hf with e | e
    · subst e
      rw [if_pos hp]
      constructor
      · intro h f' hf' hne
        have h0 : fs.countP p = 0 := by omega
        rw [List.countP_eq_zero] at h0
        rcases List.mem_cons.1 hf' with e | e
        · exact absurd e hne
        · simpa using h0 f' e
      · intro h
        have h0 : fs.countP p = 0 := by
          rw [List.countP_eq_zero]
          intro f' hf'
          rw [h f' (List.mem_cons_of_mem _ hf') (fun e => hn'.1 (e ▸ hf'))]
          exact Bool.false_ne_true
        omega
    · have hxf : x ≠ f := fun h => hn'.1 (h ▸ e)
      have ih := countP_one hn'.2 e hp
      have hpos : 0 < fs.countP p := List.countP_pos_iff.2 ⟨f, e, hp⟩
      constructor
      · intro h f' hf' hne
        by_cases hx : p x = true
        · rw [if_pos hx] at h; omega
        · rcases List.mem_cons.1 hf' with e' | e'
          · rw [e']; simpa using hx
          · rw [if_neg hx] at h
            exact ih.1 h f' e' hne
      · intro h
        have hx := h x (by simp) hxf
        rw [hx, if_neg Bool.false_ne_true]
        exact ih.2 fun f' hf' hne => h f' (List.mem_cons_of_mem _ hf') hne

open Classical in
theorem valid_spec {g : PassbandGroup ℝ} {fs : List Name} (hn : fs.Nodup) {f : Name} (hf : f ∈ fs) :
    sedValid (fs.map fun f => g.waves.map fun w => decide (Significant g f w)) (g.waves.map fun w => decide (Significant g f w)) =
      g.waves.map fun w => decide (Only g fs f w) := by
  unfold sedValid
  apply List.ext_getElem?
  intro i
  by_cases hi : i < g.waves.length
  · have hr : i < (g.waves.map fun w => decide (Significant g f w)).length := by simpa using hi
    rw [List.getElem?_map, List.getElem?_range hr, List.getElem?_map, List.getElem?_eq_getElem hi, Option.map_some, Option.map_some]
    congr 1
    have hgd : ∀ q : ℝ → Bool, (g.waves.map q).getD i false = q g.waves[i] := by
      intro q
      rw [List.getD_eq_getElem?_getD, List.getElem?_map, List.getElem?_eq_getElem hi]
      rfl
    rw [hgd]
    have hc : sedCount (fs.map fun f => g.waves.map fun w => decide (Significant g f w)) i =
        fs.countP fun f' => decide (Significant g f' g.waves[i]) := by
      unfold sedCount
      rw [List.countP_map]
      congr 1
      funext f'
      exact hgd _
    rw [hc, Bool.eq_iff_iff, Bool.and_eq_true, decide_eq_true_iff, decide_eq_true_iff, decide_eq_true_iff]
    constructor
    · rintro ⟨h1, h2⟩
      refine ⟨h1, fun f' hf' hne => ?_⟩
      have := (countP_one hn hf (p := fun f' => decide (Significant g f' g.waves[i])) (by simpa using h1)).1 h2 f' hf' hne
      simpa using this
    · rintro ⟨h1, h2⟩
      refine ⟨h1, (countP_one hn hf (p := fun f' => decide (Significant g f' g.waves[i])) (by simpa using h1)).2 ?_⟩
      intro f' hf' hne
      simpa using h2 f' hf' hne
  · rw [List.getElem?_eq_none (by simpa using hi), List.getElem?_eq_none (by simpa using hi)]

/-! ## The basis -/

theorem bandflux_one {g : PassbandGroup ℝ} (hr : Reachable g) (hsep : Separated g) {f : Name} {pb : Passband ℝ} (hg : g.getItem f = .ok pb)
    (q : ℝ → ℝ) : g.bandflux [onGrid q g.waves] f = .ok [pb.integrate (onGrid q pb.waves)] := by
  obtain ⟨hm1, hm2, hu⟩ := getItem_member hr hg
  obtain ⟨h1, _⟩ := (C30_bandflux_partial g hr f [onGrid q g.waves]).1 pb hg
  rw [h1]
  have h2 := group_bandflux (reachable_good hr) hsep hm1 [q]
  rw [List.map_cons, List.map_nil] at h2
  rw [h2, List.map_cons, List.map_nil]
  unfold Passband.bandflux
  dsimp only
  rw [if_neg (by simp [onGrid, hu.2.1]), if_neg (by simp [onGrid])]
  rfl

open Classical in
theorem basisOne_spec {g : PassbandGroup ℝ} (hr : Reachable g) (hsep : Separated g) {fs : List Name} (hn : fs.Nodup) {f : Name} (hf : f ∈ fs)
    {pb : Passband ℝ} (hg : g.getItem f = .ok pb) {b : List ℝ}
    (h : sedBasisOne g (fs.map fun f => g.waves.map fun w => decide (Significant g f w)) f (g.waves.map fun w => decide (Significant g f w)) = .ok b) :
    0 < pb.integrate (onGrid (ind g fs f) pb.waves) ∧
    b = onGrid (fun w => ind g fs f w / pb.integrate (onGrid (ind g fs f) pb.waves)) g.waves := by
  unfold sedBasisOne at h
  rw [valid_spec hn hf] at h
  have ho : sedOnes (g.waves.map fun w => decide (Only g fs f w)) = onGrid (ind g fs f) g.waves := by
    unfold sedOnes onGrid ind
    rw [List.map_map]
    apply List.map_congr_left
    intro w _
    by_cases hw : Only g fs f w
    · simp [hw]
    · simp [hw]
  rw [ho, bandflux_one hr hsep hg] at h
  split at h
  · cases h
  · dsimp only [List.head?_cons] at h
    split at h
    · cases h
    · rename_i ht
      injection h with h
      refine ⟨not_le.1 ht, ?_⟩
      rw [← h]
      unfold onGrid
      rw [List.map_map]
      rfl

/-- What the basis of a filter is. -/
def BasisOf (g : PassbandGroup ℝ) (fs : List Name) (f : Name) (b : List ℝ) : Prop :=
  ∃ pb, g.getItem f = .ok pb ∧ 0 < pb.integrate (onGrid (ind g fs f) pb.waves) ∧
    b = onGrid (fun w => ind g fs f w / pb.integrate (onGrid (ind g fs f) pb.waves)) g.waves

open Classical in
theorem loop_spec {g : PassbandGroup ℝ} (hr : Reachable g) (hsep : Separated g) {fs : List Name} (hn : fs.Nodup)
    (hall : ∀ f ∈ fs, ∃ pb, g.getItem f = .ok pb) : ∀ {sub : List Name} {basis : Dict Name (List ℝ)}, (∀ f ∈ sub, f ∈ fs) →
    sedBasisLoop g (fs.map fun f => g.waves.map fun w => decide (Significant g f w))
      (List.zip sub (sub.map fun f => g.waves.map fun w => decide (Significant g f w))) = .ok basis →
    ∀ f ∈ sub, ∃ b, basis.get? f = some b ∧ BasisOf g fs f b
  | [], basis, _, _ => by simp
  | f :: sub, basis, hs, h => by
    rw [List.map_cons, List.zip_cons_cons] at h
    unfold sedBasisLoop at h
    cases h1 : sedBasisOne g (fs.map fun f => g.waves.map fun w => decide (Significant g f w)) f (g.waves.map fun w => decide (Significant g f w)) with
    | error e => rw [h1] at h; cases h
    | ok b =>
      rw [h1] at h
      dsimp only at h
      cases h2 : sedBasisLoop g (fs.map fun f => g.waves.map fun w => decide (Significant g f w))
          (List.zip sub (sub.map fun f => g.waves.map fun w => decide (Significant g f w))) with
      | error e => rw [h2] at h; cases h
      | ok d =>
        rw [h2] at h
        injection h with h
        subst h
        obtain ⟨pb, hg⟩ := hall f (hs f (by simp))
        obtain ⟨p1, p2⟩ := basisOne_spec hr hsep hn (hs f (by simp)) hg h1
        intro f' hf'
        by_cases he : f = f'
        · subst he
          exact ⟨b, by rw [Dict.get?_cons, if_pos rfl], pb, hg, p1, p2⟩
        · obtain ⟨b', q1, q2⟩ := loop_spec hr hsep hn hall (fun x hx => hs x (List.mem_cons_of_mem _ hx)) h2 f'
            ((List.mem_cons.1 hf').resolve_left (fun e => he e.symm))
          exact ⟨b', by rw [Dict.get?_cons, if_neg he]; exact q1, q2⟩

theorem basis_spec {g : PassbandGroup ℝ} (hr : Reachable g) (hsep : Separated g) {fs : List Name} (hn : fs.Nodup)
    {basis : Dict Name (List ℝ)} (h : createSedBasis g fs = .ok basis) : ∀ f ∈ fs, ∃ b, basis.get? f = some b ∧ BasisOf g fs f b := by
  unfold createSedBasis at h
  cases h1 : sedMarkAll g fs with
  | error e => rw [h1] at h; cases h
  | ok rows =>
    rw [h1] at h
    obtain ⟨a1, a2⟩ := markAll_spec hr hsep h1
    subst a2
    exact loop_spec hr hsep hn a1 (fun f hf => hf) h

/-! ## The spectrum -/

theorem interp_grid {waves : List ℝ} (hs : waves.Pairwise (· < ·)) (q : ℝ → ℝ) {w : ℝ} (hw : w ∈ waves) :
    npInterp waves (onGrid q waves) 0 0 w = q w := by
  obtain ⟨i, hi⟩ := List.mem_iff_getElem?.1 hw
  have hne : waves ≠ [] := List.ne_nil_of_mem hw
  have hh : waves.head? = some (waves.head hne) := List.head?_eq_some_head hne
  have hl : waves.getLast? = some (waves.getLast hne) := List.getLast?_eq_some_getLast hne
  have hb := pairwise_head_last hs hh hl w hw
  unfold npInterp
  rw [hh, hl]
  dsimp only
  rw [if_neg (not_lt.2 hb.1), if_neg (not_lt.2 hb.2)]
  apply interpAt_knot waves (onGrid q waves) i w (q w) (by simp [onGrid]) hs hi
  unfold onGrid
  rw [List.getElem?_map, hi]
  rfl

theorem addOuter_grid (times waves : List ℝ) (h : ℝ → ℝ → ℝ) (v q : ℝ → ℝ) :
    addOuter (times.map fun t => waves.map (h t)) (times.map v) (waves.map q) = times.map fun t => waves.map fun w => h t w + v t * q w := by
  unfold addOuter
  rw [List.zipWith_map]
  induction times with
  | nil => rfl
  | cons t times ih =>
    rw [List.zipWith_cons_cons, List.map_cons, ih]
    congr 1
    rw [List.zipWith_map]
    generalize waves = l
    induction l with
    | nil => rfl
    | cons w l ih2 => rw [List.zipWith_cons_cons, List.map_cons, ih2]

theorem sedLoop_spec (m : TemplateModel) (times waves : List ℝ) (v : Name → ℝ → ℝ) (q : Name → ℝ → ℝ) :
    ∀ (fs : List Name) (h : ℝ → ℝ → ℝ),
    (∀ f ∈ fs, ∃ b, m.basis.get? f = some b ∧ sedAtWaves m b waves = waves.map (q f) ∧ lcEval m.data times f = .ok (times.map (v f))) →
    templateSedLoop m times waves fs (times.map fun t => waves.map (h t)) =
      .ok (times.map fun t => waves.map fun w => h t w + (fs.map fun f => v f t * q f w).sum)
  | [], h, _ => by simp [templateSedLoop]
  | f :: fs, h, hf => by
    obtain ⟨b, h1, h2, h3⟩ := hf f (by simp)
    unfold templateSedLoop
    rw [h1]
    dsimp only
    rw [h3]
    dsimp only
    rw [h2, addOuter_grid, sedLoop_spec m times waves v q fs _ (fun x hx => hf x (List.mem_cons_of_mem _ hx))]
    congr 2
    funext t
    congr 1
    funext w
    rw [List.map_cons, List.sum_cons]
    ring

/-! ## Integrating it -/

theorem integrate_zero (pb : Passband ℝ) (hw : pb.waves = pb.table.map (·.1)) : pb.integrate (onGrid (fun _ => (0 : ℝ)) pb.waves) = 0 := by
  have h := C26_linear pb hw 0 0 (onGrid (fun _ => 0) pb.waves) (onGrid (fun _ => 0) pb.waves) (by simp [onGrid]) (by simp [onGrid])
  rw [zero_mul, add_zero] at h
  have e : List.zipWith (fun f g : ℝ => 0 * f + 0 * g) (onGrid (fun _ => (0 : ℝ)) pb.waves) (onGrid (fun _ => (0 : ℝ)) pb.waves) =
      onGrid (fun _ => (0 : ℝ)) pb.waves := by
    unfold onGrid
    rw [List.zipWith_map]
    generalize pb.waves = l
    induction l with
    | nil => rfl
    | cons a l ih => rw [List.map_cons, List.zipWith_cons_cons, ih]; simp
  rw [e] at h
  exact h

theorem integrate_add (pb : Passband ℝ) (hw : pb.waves = pb.table.map (·.1)) (a b : ℝ) (p q : ℝ → ℝ) :
    pb.integrate (onGrid (fun w => a * p w + b * q w) pb.waves) = a * pb.integrate (onGrid p pb.waves) + b * pb.integrate (onGrid q pb.waves) := by
  rw [← C26_linear pb hw a b _ _ (by simp [onGrid]) (by simp [onGrid])]
  congr 1
  unfold onGrid
  rw [List.zipWith_map]
  generalize pb.waves = l
  induction l with
  | nil => rfl
  | cons a l ih => rw [List.map_cons, List.zipWith_cons_cons, ih]

theorem integrate_sum (pb : Passband ℝ) (hw : pb.waves = pb.table.map (·.1)) (c : Name → ℝ) (q : Name → ℝ → ℝ) : ∀ fs : List Name,
    pb.integrate (onGrid (fun w => (fs.map fun f => c f * q f w).sum) pb.waves) =
      (fs.map fun f => c f * pb.integrate (onGrid (q f) pb.waves)).sum
  | [] => by simpa using integrate_zero pb hw
  | f :: fs => by
    have h := integrate_add pb hw (c f) 1 (q f) (fun w => (fs.map fun f => c f * q f w).sum)
    rw [List.map_cons, List.sum_cons, ← integrate_sum pb hw c q fs]
    rw [one_mul] at h
    rw [← h]
    congr 2
    funext w
    rw [List.map_cons, List.sum_cons, one_mul]

theorem integrate_congr (pb : Passband ℝ) (hw : pb.waves = pb.table.map (·.1)) (p q : ℝ → ℝ) (h : ∀ w T, (w, T) ∈ pb.table → p w * T = q w * T) :
    pb.integrate (onGrid p pb.waves) = pb.integrate (onGrid q pb.waves) := by
  have e : List.zipWith (· * ·) (onGrid p pb.waves) (pb.table.map (·.2)) = List.zipWith (· * ·) (onGrid q pb.waves) (pb.table.map (·.2)) := by
    rw [hw]
    unfold onGrid
    rw [List.map_map, List.map_map, List.zipWith_map, List.zipWith_map]
    revert h
    generalize pb.table = l
    intro h
    induction l with
    | nil => rfl
    | cons a l ih =>
      rw [List.zipWith_cons_cons, List.zipWith_cons_cons, ih (fun w T hm => h w T (List.mem_cons_of_mem _ hm))]
      congr 1
      exact h a.1 a.2 (by simp)
  unfold Passband.integrate
  rw [e]

theorem integrate_scale (pb : Passband ℝ) (hw : pb.waves = pb.table.map (·.1)) (p : ℝ → ℝ) (c : ℝ) :
    pb.integrate (onGrid (fun w => p w / c) pb.waves) = pb.integrate (onGrid p pb.waves) / c := by
  have h := integrate_add pb hw (1 / c) 0 p p
  rw [zero_mul, add_zero] at h
  rw [div_eq_mul_one_div, mul_comm, ← h]
  congr 2
  funext w
  ring

end LCL.TemplateSedLemmas
