import Verif.Model.PassbandGroup
import Verif.Props.Passband2

/-!
# Properties C29 and C30: `PassbandGroup`
-/

namespace LCL.PassbandGroupProps
open LCL LCL.PassbandSpec LCL.PassbandLemmas LCL.PassbandProps
variable {K : Type} [Field K] [LinearOrder K] [IsStrictOrderedRing K] [FloorRing K]

/-! ## Specification -/

/-- The groups a program can hold: constructed from passbands that were themselves constructed, then
changed by any sequence of `add_passband` and `process_transmission_tables` calls that return. -/
inductive Reachable : PassbandGroup K → Prop
  | init {given : List (Passband K)} {filters : Option (List Name)} {g : PassbandGroup K}
      (hg : ∀ pb ∈ given, ∃ t survey f delta q units, Passband.init t survey f delta q units = .ok pb)
      (h : PassbandGroup.init given filters = .ok g) : Reachable g
  | add {g g' : PassbandGroup K} {pb : Passband K} (hr : Reachable g)
      (hp : ∃ t survey f delta q units, Passband.init t survey f delta q units = .ok pb)
      (h : g.add pb = (g', none)) : Reachable g'
  | process {g g' : PassbandGroup K} {delta q : Option K} (hr : Reachable g)
      (h : g.process delta q = (g', none)) : Reachable g'

/-- No two distinct wavelengths of the group's bands are closer than the merging threshold `1e-5`. -/
def Separated (g : PassbandGroup K) : Prop :=
  ∀ pb ∈ g.passbands.values, ∀ pb' ∈ g.passbands.values, ∀ a ∈ pb.waves, ∀ b ∈ pb'.waves,
    a < b → 1 / 10 ^ 5 ≤ b - a

/-- The spectrum `f` sampled on a grid. -/
def onGrid (f : K → K) (grid : List K) : List K := grid.map f

/-! ## Passbands -/

/-- The part of a constructed passband the group relies on. -/
def Usable (pb : Passband K) : Prop :=
  pb.waves.Pairwise (· < ·) ∧ pb.waves ≠ [] ∧ (pb.loaded.map (·.1)).Pairwise (· < ·) ∧ pb.waves = pb.table.map (·.1)

omit [LinearOrder K] [IsStrictOrderedRing K] [FloorRing K] in
theorem steps_short {P : K → Prop} {l : List K} (h : l.length ≤ 1) : Steps P l := by
  match l, h with
  | [], _ => exact List.isChain_nil
  | [a], _ => exact List.isChain_singleton a

theorem interpolate_sorted {t t1 : List (K × K)} {delta : Option K} (hs : (t.map (·.1)).Pairwise (· < ·))
    (h : Passband.interpolate t delta = .ok t1) : (t1.map (·.1)).Pairwise (· < ·) := by
  cases delta with
  | none => cases h; exact hs
  | some d =>
    rcases lt_trichotomy d 0 with hd | hd | hd
    · unfold Passband.interpolate at h
      simp only at h
      split at h
      · cases h; exact hs
      · rename_i hc
        rw [if_neg hd.ne] at h
        obtain ⟨a, b, m, hl⟩ := not_close_two hc
        have hlo : (t.map (·.1)).head? = some ((t.map (·.1)).headD 0) := by rw [hl]; rfl
        have hhi : (t.map (·.1)).getLast? = some ((t.map (·.1)).getLastD 0) := by
          rw [hl]; simp [List.getLast?_cons, List.getLastD_eq_getLast?]
        have hb := pairwise_head_last hs hlo hhi b (by rw [hl]; simp)
        generalize (t.map (·.1)).headD 0 = lo at *
        generalize (t.map (·.1)).getLastD 0 = hi at *
        have hq : pyInt ((hi - lo) / d) ≤ 0 := by
          have hneg : (hi - lo) / d ≤ 0 := div_nonpos_of_nonneg_of_nonpos (by linarith [hb.1, hb.2]) hd.le
          unfold pyInt
          split
          · have h0 : (hi - lo) / d = 0 := le_antisymm hneg (by assumption)
            rw [h0]; simp
          · exact Int.ceil_le.2 (by simpa using hneg)
        split at h
        · cases h
        · cases h
          apply steps_pos_pairwise
          apply steps_short
          simp only [linspace, List.length_map, List.length_range]
          omega
    · subst hd
      unfold Passband.interpolate at h
      simp only at h
      split at h
      · cases h; exact hs
      · simp at h
    · rcases interpolate_cases hd hs h with ⟨rfl, _⟩ | ⟨lo, hi, n, g1, g2, g3, g4, g5, rfl⟩
      · exact hs
      · have hmap : ((linspace lo hi (n + 1)).map fun w => (w, interpAt (t.map (·.1)) (t.map (·.2)) w)).map (·.1) =
            linspace lo hi (n + 1) := by rw [List.map_map]; simp [Function.comp_def]
        rw [hmap]
        apply steps_pos_pairwise
        by_cases hn : n = 0
        · subst hn; exact steps_short (by simp [linspace])
        · have hst := linspace_steps lo hi (n + 1)
          simp only [Nat.add_sub_cancel] at hst
          refine Steps_mono ?_ hst
          intro g hg
          rw [hg]
          exact div_pos (by linarith) (by rw [Nat.cast_pos]; omega)

theorem process_sorted {t t2 : List (K × K)} {delta q : Option K} (hs : (t.map (·.1)).Pairwise (· < ·))
    (h : Passband.process t delta q = .ok t2) : (t2.map (·.1)).Pairwise (· < ·) ∧ t2.map (·.1) ≠ [] := by
  unfold Passband.process at h
  split at h
  · cases h
  · rename_i t1 h1
    split at h
    · cases h
    · rename_i t1' h2
      obtain ⟨hl, hm, _, _⟩ := normalize_ok h
      rw [hm]
      refine ⟨(interpolate_sorted hs h1).sublist ((trim_ok h2).map _).sublist, ?_⟩
      intro h0
      rw [List.map_eq_nil_iff] at h0
      rw [h0] at hl; simp at hl

theorem init_usable {t : List (K × K)} {survey f : Name} {delta q : Option K} {units : String} {pb : Passband K}
    (h : Passband.init t survey f delta q units = .ok pb) : Usable pb := by
  unfold Passband.init at h
  split at h
  · cases h
  · rename_i t0 h0
    obtain ⟨rfl, hs⟩ := validate_ok h0
    split at h
    · cases h
    · rename_i t1 h1
      have hconv : (t1.map (·.1)).Pairwise (· < ·) := by
        unfold Passband.toAngstrom at h1
        split at h1
        · cases h1
          apply steps_pos_pairwise
          rw [List.map_map]
          unfold Steps at hs ⊢
          rw [List.isChain_map] at hs ⊢
          refine hs.imp ?_
          intro a b hab
          simp only [Function.comp_apply]
          linarith
        · split at h1
          · cases h1; exact steps_pos_pairwise hs
          · cases h1
      split at h
      · cases h
      · rename_i t2 h2
        cases h
        exact ⟨(process_sorted hconv h2).1, (process_sorted hconv h2).2, hconv, rfl⟩

/-! ## The group invariant -/

/-- The members are stored under their own names, and the derived data is that of the members. -/
structure Good (g : PassbandGroup K) : Prop where
  nodup : g.passbands.keys.Nodup
  names : ∀ n pb, (n, pb) ∈ g.passbands → pb.fullName = n ∧ Usable pb
  filters : g.filterToName = g.passbands.foldl PassbandGroup.addFilter []
  waves : g.waves = PassbandGroup.gridOf (1 / 10 ^ 5) g.passbands
  index : PassbandGroup.indexAll g.waves g.passbands = .ok g.indices

/-- Members stored under their own names. -/
def Members (d : Dict Name (Passband K)) : Prop :=
  d.keys.Nodup ∧ ∀ n pb, (n, pb) ∈ d → pb.fullName = n ∧ Usable pb

omit [FloorRing K] [IsStrictOrderedRing K] in
theorem update_good {g g' : PassbandGroup K} (hm : Members g.passbands) (h : g.update = (g', none)) :
    Good g' ∧ g'.passbands = g.passbands := by
  unfold PassbandGroup.update at h
  simp only at h
  split at h
  · rename_i m hmm
    simp only [Prod.mk.injEq, and_true] at h
    subst h
    exact ⟨⟨hm.1, hm.2, rfl, rfl, hmm⟩, rfl⟩
  · simp at h

omit [Field K] [LinearOrder K] [IsStrictOrderedRing K] [FloorRing K] in
theorem mem_set {d : Dict Name (Passband K)} {k : Name} {v : Passband K} {n : Name} {w : Passband K}
    (hd : d.keys.Nodup) (h : (n, w) ∈ d.set k v) : (n = k ∧ w = v) ∨ (n, w) ∈ d := by
  have h1 := Dict.get?_of_mem (Dict.nodup_set hd k v) h
  rw [Dict.get?_set] at h1
  split at h1
  · rename_i e; cases h1; exact Or.inl ⟨e.symm, rfl⟩
  · exact Or.inr (Dict.mem_of_get? h1)

omit [FloorRing K] [IsStrictOrderedRing K] in
theorem members_set {d : Dict Name (Passband K)} (hm : Members d) {pb : Passband K} (hp : Usable pb) :
    Members (Dict.set d pb.fullName pb) := by
  refine ⟨Dict.nodup_set hm.1 _ _, ?_⟩
  intro n w h
  rcases mem_set hm.1 h with ⟨rfl, rfl⟩ | h
  · exact ⟨rfl, hp⟩
  · exact hm.2 n w h

omit [FloorRing K] [IsStrictOrderedRing K] in
theorem members_fold (given : List (Passband K)) (hg : ∀ pb ∈ given, Usable pb) : ∀ d, Members d →
    Members (given.foldl (fun (d : Dict Name (Passband K)) pb => Dict.set d pb.fullName pb) d) := by
  induction given with
  | nil => intro d h; exact h
  | cons pb given ih =>
    intro d h
    exact ih (fun p hp => hg p (List.mem_cons_of_mem _ hp)) _ (members_set h (hg pb (by simp)))

omit [Field K] [LinearOrder K] [IsStrictOrderedRing K] [FloorRing K] in
theorem erase_sub {d : Dict Name (Passband K)} {k : Name} {p : Name × Passband K} (h : p ∈ d.erase k) : p ∈ d := by
  induction d with
  | nil => simp [Dict.erase] at h
  | cons q d ih =>
    obtain ⟨a, b⟩ := q
    unfold Dict.erase at h
    split at h
    · exact List.mem_cons_of_mem _ h
    · rcases List.mem_cons.1 h with rfl | h
      · simp
      · exact List.mem_cons_of_mem _ (ih h)

omit [FloorRing K] [IsStrictOrderedRing K] in
theorem members_prune (fs : List Name) (ps : List (Name × Passband K)) : ∀ st : Dict Name (Passband K) × List Name,
    Members st.1 → Members (ps.foldl (PassbandGroup.pruneStep fs) st).1 := by
  induction ps with
  | nil => intro st h; exact h
  | cons p ps ih =>
    intro st h
    apply ih
    unfold PassbandGroup.pruneStep
    split
    · exact h
    · split
      · exact h
      · exact ⟨Dict.nodup_erase h.1 _, fun n pb hm => h.2 n pb (erase_sub hm)⟩

theorem reprocess_members {delta q : Option K} : ∀ {d d' : Dict Name (Passband K)},
    (∀ n pb, (n, pb) ∈ d → pb.fullName = n ∧ Usable pb) → PassbandGroup.reprocessAll delta q d = (d', none) →
    d'.keys = d.keys ∧ ∀ n pb, (n, pb) ∈ d' → pb.fullName = n ∧ Usable pb := by
  intro d
  induction d with
  | nil =>
    intro d' _ h
    simp only [PassbandGroup.reprocessAll, Prod.mk.injEq, and_true] at h
    subst h
    exact ⟨rfl, by simp⟩
  | cons p d ih =>
    obtain ⟨m, pb⟩ := p
    intro d' hm h
    unfold PassbandGroup.reprocessAll at h
    split at h
    · simp at h
    · rename_i pb' hpb
      simp only [Prod.mk.injEq] at h
      obtain ⟨rfl, h2⟩ := h
      obtain ⟨e1, e2⟩ := ih (d' := (PassbandGroup.reprocessAll delta q d).1)
        (fun n w hw => hm n w (List.mem_cons_of_mem _ hw)) (by rw [← h2])
      have hpb' : pb'.fullName = m ∧ Usable pb' := by
        obtain ⟨u1, u2⟩ := hm m pb (by simp)
        unfold Passband.reprocess at hpb
        split at hpb
        · simp at hpb
        · rename_i t ht
          simp only [Prod.mk.injEq, and_true] at hpb
          subst hpb
          exact ⟨u1, (process_sorted u2.2.2.1 ht).1, (process_sorted u2.2.2.1 ht).2, u2.2.2.1, rfl⟩
      refine ⟨by simp [e1], ?_⟩
      intro n w hw
      rcases List.mem_cons.1 hw with h | h
      · cases h; exact hpb'
      · exact e2 n w h

theorem reachable_good {g : PassbandGroup K} (hr : Reachable g) : Good g := by
  induction hr with
  | init hg h =>
    rename_i given filters g
    unfold PassbandGroup.init at h
    split at h
    · cases h
    · simp only at h
      split at h
      · cases h
      · have hall : Members (given.foldl (fun (d : Dict Name (Passband K)) pb => Dict.set d pb.fullName pb) []) :=
          members_fold given (fun pb hp => by
            obtain ⟨t, s, f, dl, q, u, e⟩ := hg pb hp
            exact init_usable e) [] ⟨by simp, by simp⟩
        have hpr : Members (PassbandGroup.prune (PassbandGroup.store given) filters).1 := by
          cases filters with
          | none => exact hall
          | some fs => exact members_prune fs _ _ hall
        split at h
        · rename_i g' hu
          cases h
          exact (update_good hpr hu).1
        · cases h
  | add hr hp h ih =>
    obtain ⟨t, s, f, dl, q, u, e⟩ := hp
    exact (update_good (members_set ⟨ih.nodup, ih.names⟩ (init_usable e)) h).1
  | process hr h ih =>
    rename_i g g' delta q
    unfold PassbandGroup.process at h
    split at h
    · simp at h
    · rename_i pbs hp
      obtain ⟨e1, e2⟩ := reprocess_members ih.names hp
      exact (update_good ⟨by rw [e1]; exact ih.nodup, e2⟩ h).1

/-! ## The shared grid -/

omit [FloorRing K] in
theorem keepAfter_spec {thr : K} (ht : 0 < thr) : ∀ (l : List K) (prev : K), (prev :: l).Pairwise (· ≤ ·) →
    (keepAfter thr prev l).Pairwise (· < ·) ∧ (∀ x ∈ keepAfter thr prev l, x ∈ l ∧ prev < x) ∧
    ((∀ a ∈ prev :: l, ∀ b ∈ prev :: l, a < b → thr ≤ b - a) → ∀ x ∈ l, x ≠ prev → x ∈ keepAfter thr prev l) := by
  intro l
  induction l with
  | nil => intro prev _; simp [keepAfter]
  | cons y l ih =>
    intro prev hp
    have hp' := List.pairwise_cons.1 hp
    have hy : prev ≤ y := hp'.1 y (by simp)
    obtain ⟨i1, i2, i3⟩ := ih y hp'.2
    unfold keepAfter
    split
    · rename_i hk
      refine ⟨?_, ?_, ?_⟩
      · rw [List.pairwise_cons]
        exact ⟨fun x hx => (i2 x hx).2, i1⟩
      · intro x hx
        rcases List.mem_cons.1 hx with rfl | hx
        · exact ⟨by simp, by linarith⟩
        · exact ⟨List.mem_cons_of_mem _ (i2 x hx).1, by linarith [(i2 x hx).2]⟩
      · intro hsep x hx hne
        by_cases hxy : x = y
        · simp [hxy]
        · rcases List.mem_cons.1 hx with h | h
          · exact absurd h hxy
          · exact List.mem_cons_of_mem _ (i3 (fun a ha b hb => hsep a (List.mem_cons_of_mem _ ha) b (List.mem_cons_of_mem _ hb)) x h hxy)
    · rename_i hk
      refine ⟨i1, ?_, ?_⟩
      · intro x hx
        exact ⟨List.mem_cons_of_mem _ (i2 x hx).1, by linarith [(i2 x hx).2]⟩
      · intro hsep x hx hne
        have hyp : y = prev := by
          by_contra hc
          exact hk (hsep prev (by simp) y (by simp) (lt_of_le_of_ne hy (fun e => hc e.symm)))
        rcases List.mem_cons.1 hx with h | h
        · exact absurd (h.trans hyp) hne
        · exact i3 (fun a ha b hb => hsep a (List.mem_cons_of_mem _ ha) b (List.mem_cons_of_mem _ hb)) x h (hyp ▸ hne)

omit [FloorRing K] in
theorem keepGaps_spec {thr : K} (ht : 0 < thr) (l : List K) (hp : l.Pairwise (· ≤ ·)) :
    (keepGaps thr l).Pairwise (· < ·) ∧ (∀ x ∈ keepGaps thr l, x ∈ l) ∧
    ((∀ a ∈ l, ∀ b ∈ l, a < b → thr ≤ b - a) → ∀ x ∈ l, x ∈ keepGaps thr l) := by
  cases l with
  | nil => simp [keepGaps]
  | cons y l =>
    obtain ⟨i1, i2, i3⟩ := keepAfter_spec ht l y hp
    unfold keepGaps
    refine ⟨?_, ?_, ?_⟩
    · rw [List.pairwise_cons]; exact ⟨fun x hx => (i2 x hx).2, i1⟩
    · intro x hx
      rcases List.mem_cons.1 hx with rfl | hx
      · simp
      · exact List.mem_cons_of_mem _ (i2 x hx).1
    · intro hsep x hx
      by_cases hxy : x = y
      · simp [hxy]
      · rcases List.mem_cons.1 hx with h | h
        · exact absurd h hxy
        · exact List.mem_cons_of_mem _ (i3 hsep x h hxy)

omit [FloorRing K] [IsStrictOrderedRing K] in
theorem sort_spec (l : List K) : (l.mergeSort (fun a b => decide (a ≤ b))).Pairwise (· ≤ ·) ∧
    ∀ x, x ∈ l.mergeSort (fun a b => decide (a ≤ b)) ↔ x ∈ l := by
  constructor
  · have := List.pairwise_mergeSort (le := fun a b : K => decide (a ≤ b)) (by simp; exact fun a b c => le_trans)
      (by simp; exact fun a b => le_total a b) l
    exact this.imp (fun h => by simpa using h)
  · intro x; exact List.mem_mergeSort

omit [FloorRing K] in
theorem grid_spec (d : Dict Name (Passband K)) :
    (PassbandGroup.gridOf (1 / 10 ^ 5) d).Pairwise (· < ·) ∧
    (∀ x ∈ PassbandGroup.gridOf (1 / 10 ^ 5) d, ∃ pb ∈ d.values, x ∈ pb.waves) ∧
    ((∀ pb ∈ d.values, ∀ pb' ∈ d.values, ∀ a ∈ pb.waves, ∀ b ∈ pb'.waves, a < b → 1 / 10 ^ 5 ≤ b - a) →
      ∀ pb ∈ d.values, ∀ x ∈ pb.waves, x ∈ PassbandGroup.gridOf (1 / 10 ^ 5) d) := by
  obtain ⟨s1, s2⟩ := sort_spec ((d.values.map (·.waves)).flatten)
  obtain ⟨k1, k2, k3⟩ := keepGaps_spec (thr := (1 / 10 ^ 5 : K)) (by positivity) _ s1
  have hmem : ∀ x, x ∈ (d.values.map (·.waves)).flatten ↔ ∃ pb ∈ d.values, x ∈ pb.waves := by
    intro x; simp
  refine ⟨k1, ?_, ?_⟩
  · intro x hx
    exact (hmem x).1 ((s2 x).1 (k2 x hx))
  · intro hsep pb hpb x hx
    apply k3
    · intro a ha b hb hab
      obtain ⟨p, hp, h1⟩ := (hmem a).1 ((s2 a).1 ha)
      obtain ⟨p', hp', h2⟩ := (hmem b).1 ((s2 b).1 hb)
      exact hsep p hp p' hp' a h1 b h2 hab
    · exact (s2 x).2 ((hmem x).2 ⟨pb, hpb, hx⟩)

omit [FloorRing K] [Field K] [IsStrictOrderedRing K] in
theorem searchLeft_mem [Field K] : ∀ (l : List K) (w : K), l.Pairwise (· < ·) → w ∈ l → l[searchLeft l w]? = some w := by
  intro l
  induction l with
  | nil => intro w _ h; simp at h
  | cons a l ih =>
    intro w hp hw
    have hp' := List.pairwise_cons.1 hp
    unfold searchLeft
    rcases List.mem_cons.1 hw with rfl | hm
    · simp [List.takeWhile]
    · have hlt := hp'.1 w hm
      rw [List.takeWhile_cons]
      simp only [hlt, decide_true, if_true, List.length_cons, List.getElem?_cons_succ]
      exact ih w hp'.2 hm

omit [FloorRing K] [IsStrictOrderedRing K] in
theorem select_spec {waves pw : List K} {idx : WaveIdx} (h : PassbandGroup.indexOf waves pw = .ok idx)
    (hs : waves.Pairwise (· < ·)) (hsub : ∀ w ∈ pw, w ∈ waves) (f : K → K) :
    idx.select (onGrid f waves) = .ok (onGrid f pw) := by
  unfold PassbandGroup.indexOf at h
  split at h
  · simp only at h
    split at h
    · rename_i hsl
      cases h
      simp only [WaveIdx.select, onGrid]
      rw [← List.map_take, ← List.map_drop, hsl]
    · cases h
      simp only [WaveIdx.select, onGrid]
      rw [List.mapM_map]
      apply LCL.mapM_eq
      intro w hw
      simp only [pick, Function.comp_apply]
      rw [List.getElem?_map, searchLeft_mem waves w hs (hsub w hw)]
      rfl
  · cases h

omit [FloorRing K] [IsStrictOrderedRing K] in
theorem indexAll_get {waves : List K} : ∀ {d : Dict Name (Passband K)} {m : Dict Name WaveIdx},
    PassbandGroup.indexAll waves d = .ok m → ∀ n pb, d.get? n = some pb →
      ∃ i, m.get? n = some i ∧ PassbandGroup.indexOf waves pb.waves = .ok i := by
  intro d
  induction d with
  | nil => intro m _ n pb h; simp at h
  | cons p d ih =>
    obtain ⟨k, q⟩ := p
    intro m h n pb hn
    unfold PassbandGroup.indexAll at h
    split at h
    · cases h
    · rename_i i hi
      split at h
      · cases h
      · rename_i m' hm'
        cases h
        rw [Dict.get?_cons] at hn
        by_cases hk : k = n
        · rw [if_pos hk] at hn; cases hn
          exact ⟨i, by rw [Dict.get?_cons, if_pos hk], hi⟩
        · rw [if_neg hk] at hn
          obtain ⟨j, h1, h2⟩ := ih hm' n pb hn
          exact ⟨j, by rw [Dict.get?_cons, if_neg hk]; exact h1, h2⟩

omit [FloorRing K] in
theorem group_bandflux {g : PassbandGroup K} (hg : Good g) (hsep : Separated g) {n : Name} {pb : Passband K}
    (hn : g.passbands.get? n = some pb) (fs : List (K → K)) :
    g.bandflux (fs.map fun f => onGrid f g.waves) n = pb.bandflux (fs.map fun f => onGrid f pb.waves) := by
  obtain ⟨i, h1, h2⟩ := indexAll_get hg.index n pb hn
  obtain ⟨s1, s2, s3⟩ := grid_spec g.passbands
  rw [← hg.waves] at s1 s2 s3
  have hv : pb ∈ g.passbands.values := List.mem_map.2 ⟨(n, pb), Dict.mem_of_get? hn, rfl⟩
  have hsel := fun f => select_spec h2 s1 (s3 hsep pb hv) f
  unfold PassbandGroup.bandflux
  simp only [hn, h1]
  have : (fs.map fun f => onGrid f g.waves).mapM (WaveIdx.select i) = .ok (fs.map fun f => onGrid f pb.waves) := by
    rw [List.mapM_map]
    apply LCL.mapM_eq
    intro f _
    simp only [Function.comp_apply]
    exact hsel f
  rw [this]

omit [FloorRing K] in
theorem shared_grid {g : PassbandGroup K} (hg : Good g) (hsep : Separated g) :
    g.waves.Pairwise (· < ·) ∧
    (∀ w, w ∈ g.waves ↔ ∃ pb ∈ g.passbands.values, w ∈ pb.waves) ∧
    (∀ n pb, g.passbands.get? n = some pb → ∀ fs : List (K → K),
      g.bandflux (fs.map fun f => onGrid f g.waves) n = pb.bandflux (fs.map fun f => onGrid f pb.waves)) ∧
    (∀ fs : List (K → K), fs ≠ [] → g.passbands ≠ [] → ∃ d,
      g.bandfluxes (fs.map fun f => onGrid f g.waves) = .ok d ∧ d.keys = g.passbands.keys ∧
      ∀ n pb, g.passbands.get? n = some pb → ∃ v, d.get? n = some v ∧
        pb.bandflux (fs.map fun f => onGrid f pb.waves) = .ok v) := by
  obtain ⟨s1, s2, s3⟩ := grid_spec g.passbands
  rw [← hg.waves] at s1 s2 s3
  refine ⟨s1, fun w => ⟨s2 w, fun ⟨pb, h1, h2⟩ => s3 hsep pb h1 w h2⟩, fun n pb hn fs => group_bandflux hg hsep hn fs, ?_⟩
  intro fs hfs hpb
  have hok : ∀ n pb, g.passbands.get? n = some pb → ∃ v, pb.bandflux (fs.map fun f => onGrid f pb.waves) = .ok v := by
    intro n pb hn
    obtain ⟨_, hu⟩ := hg.names n pb (Dict.mem_of_get? hn)
    cases fs with
    | nil => exact absurd rfl hfs
    | cons f fs =>
      unfold Passband.bandflux
      simp only [List.map_cons]
      rw [if_neg (by simp [onGrid, hu.2.1]), if_neg (by simp [onGrid])]
      exact ⟨_, rfl⟩
  have hwaves : g.waves ≠ [] := by
    cases hp : g.passbands with
    | nil => exact absurd hp hpb
    | cons p d =>
      obtain ⟨_, hu⟩ := hg.names p.1 p.2 (by rw [hp]; simp)
      obtain ⟨w, hw⟩ := List.exists_mem_of_ne_nil _ hu.2.1
      have := s3 hsep p.2 (by rw [hp]; simp [Dict.values]) w hw
      exact List.ne_nil_of_mem this
  have hcol : ∀ names : List Name, (∀ n ∈ names, ∃ pb, g.passbands.get? n = some pb) →
      ∃ d, PassbandGroup.collect g (fs.map fun f => onGrid f g.waves) names = .ok d ∧ d.keys = names ∧
        ∀ n ∈ names, ∀ pb, g.passbands.get? n = some pb → ∃ v, Dict.get? d n = some v ∧
          pb.bandflux (fs.map fun f => onGrid f pb.waves) = .ok v := by
    intro names
    induction names with
    | nil => intro _; exact ⟨[], rfl, rfl, by simp⟩
    | cons n names ih =>
      intro h
      obtain ⟨d, e1, e2, e3⟩ := ih (fun m hm => h m (List.mem_cons_of_mem _ hm))
      obtain ⟨pb, hn⟩ := h n (by simp)
      obtain ⟨v, hv⟩ := hok n pb hn
      refine ⟨(n, v) :: d, ?_, by simp [e2], ?_⟩
      · unfold PassbandGroup.collect
        rw [group_bandflux hg hsep hn, hv]
        simp only
        rw [e1]
      · intro m hm pb' hpb'
        rw [Dict.get?_cons]
        by_cases hnm : n = m
        · subst hnm
          rw [hn] at hpb'; cases hpb'
          exact ⟨v, by simp, hv⟩
        · rw [if_neg hnm]
          rcases List.mem_cons.1 hm with h | h
          · exact absurd h.symm hnm
          · exact e3 m h pb' hpb'
  obtain ⟨d, e1, e2, e3⟩ := hcol g.passbands.keys (by
    intro n hn
    obtain ⟨p, hp, rfl⟩ := List.mem_map.1 hn
    exact ⟨p.2, Dict.get?_of_mem hg.nodup hp⟩)
  refine ⟨d, ?_, e2, ?_⟩
  · cases fs with
    | nil => exact absurd rfl hfs
    | cons f fs =>
      unfold PassbandGroup.bandfluxes
      simp only [List.map_cons] at e1 ⊢
      rw [if_neg (by simp [onGrid, hwaves])]
      exact e1
  · intro n pb hn
    exact e3 n (List.mem_map.2 ⟨(n, pb), Dict.mem_of_get? hn, rfl⟩) pb hn

/-- C29, when the bands' wavelengths are separated. For every reachable group no two distinct
wavelengths of which are closer than `1e-5`: the shared grid is strictly increasing and holds exactly
the wavelengths of the member bands, and the bandfluxes of any spectra sampled on the shared grid,
for one band or for all, are those the member bands themselves give for the same spectra sampled on
their own grids. (Every array of fluxes on the grid is such a sample, as the grid has no repetition.)
Missing: groups with distinct but closer wavelengths, see `C29_close_waves_counterexample`. -/
theorem C29_shared_grid_partial (g : PassbandGroup K) (hr : Reachable g) (hsep : Separated g) :
    g.waves.Pairwise (· < ·) ∧
    (∀ w, w ∈ g.waves ↔ ∃ pb ∈ g.passbands.values, w ∈ pb.waves) ∧
    (∀ n pb, g.passbands.get? n = some pb → ∀ fs : List (K → K),
      g.bandflux (fs.map fun f => onGrid f g.waves) n = pb.bandflux (fs.map fun f => onGrid f pb.waves)) ∧
    (∀ fs : List (K → K), fs ≠ [] → g.passbands ≠ [] → ∃ d,
      g.bandfluxes (fs.map fun f => onGrid f g.waves) = .ok d ∧ d.keys = g.passbands.keys ∧
      ∀ n pb, g.passbands.get? n = some pb → ∃ v, d.get? n = some v ∧
        pb.bandflux (fs.map fun f => onGrid f pb.waves) = .ok v) :=
  shared_grid (reachable_good hr) hsep

omit [IsStrictOrderedRing K] in
/-- C29. All bandfluxes of spectra that are not sampled on the shared grid (no spectra, an empty spectrum, or a first spectrum with
another number of entries than the grid) raise ValueError. -/
theorem C29_grid_mismatch (g : PassbandGroup K) (m : List (List K)) (h : ∀ row ∈ m.head?, row = [] ∨ row.length ≠ g.waves.length) :
    g.bandfluxes m = .error .valueError := by
  unfold PassbandGroup.bandfluxes
  cases m with
  | nil => rfl
  | cons row m =>
    have := h row (by simp)
    dsimp only
    rw [if_pos]
    rcases this with h | h
    · exact Or.inl h
    · exact Or.inr (Ne.symm h)

/-! ## C30 -/

/-- The full names of the members with a given filter name, in order. -/
def withFilter (d : Dict Name (Passband K)) (f : Name) : List Name :=
  (d.filter fun p => decide (p.2.filterName = f)).map (·.1)

omit [Field K] [LinearOrder K] [IsStrictOrderedRing K] [FloorRing K] in
theorem fold_filters : ∀ (ps : Dict Name (Passband K)) (d : Dict Name (List Name)) (f : Name),
    Dict.get? (ps.foldl PassbandGroup.addFilter d) f =
      match d.get? f with
      | some l => some (l ++ withFilter ps f)
      | none => if withFilter ps f = [] then none else some (withFilter ps f) := by
  intro ps
  induction ps with
  | nil => intro d f; simp [withFilter]; cases Dict.get? d f <;> rfl
  | cons p ps ih =>
    intro d f
    rw [List.foldl_cons, ih]
    unfold PassbandGroup.addFilter
    by_cases hf : p.2.filterName = f
    · subst hf
      have hw : withFilter (p :: ps) p.2.filterName = p.1 :: withFilter ps p.2.filterName := by simp [withFilter]
      rw [hw]
      cases hd : Dict.get? d p.2.filterName with
      | none => simp
      | some l => simp
    · have hw : withFilter (p :: ps) f = withFilter ps f := by simp [withFilter, hf]
      rw [hw]
      cases hd : Dict.get? d p.2.filterName with
      | none => simp [Dict.get?_set_ne _ _ hf]
      | some l => simp [Dict.get?_set_ne _ _ hf]

omit [FloorRing K] [IsStrictOrderedRing K] in
theorem filters_get {g : PassbandGroup K} (hg : Good g) (f : Name) :
    g.filterToName.get? f = if withFilter g.passbands f = [] then none else some (withFilter g.passbands f) := by
  rw [hg.filters, fold_filters]; rfl

/-- The members whose filter name is `key`. -/
def Matching (g : PassbandGroup K) (key : Name) (pb : Passband K) : Prop :=
  pb ∈ g.passbands.values ∧ pb.filterName = key

/-- C30 (lookup). For every reachable group and key: the member with that full name is returned; if
there is none, the member with that filter name is returned when exactly one has it, and KeyError is
raised when none or several have it. `in` is true exactly for the full names and the filter names of
members, and `mask_by_filter` is that membership, elementwise. -/
theorem C30_lookup (g : PassbandGroup K) (hr : Reachable g) (key : Name) :
    (∀ pb ∈ g.passbands.values, pb.fullName = key → g.getItem key = .ok pb) ∧
    ((∀ pb ∈ g.passbands.values, pb.fullName ≠ key) →
      (∀ pb, Matching g key pb → (∀ pb', Matching g key pb' → pb'.fullName = pb.fullName) → g.getItem key = .ok pb) ∧
      ((∀ pb, ¬ Matching g key pb) → g.getItem key = .error .keyError) ∧
      (∀ pb pb', Matching g key pb → Matching g key pb' → pb.fullName ≠ pb'.fullName → g.getItem key = .error .keyError)) ∧
    (g.contains key = true ↔ ∃ pb ∈ g.passbands.values, pb.fullName = key ∨ pb.filterName = key) ∧
    (∀ filters, g.maskByFilter filters = filters.map g.contains) := by
  have hg := reachable_good hr
  have hval : ∀ pb, pb ∈ g.passbands.values → g.passbands.get? pb.fullName = some pb := by
    intro pb hpb
    obtain ⟨⟨n, q⟩, hp, rfl⟩ := List.mem_map.1 hpb
    have := (hg.names n q hp).1
    simp only
    rw [this]
    exact Dict.get?_of_mem hg.nodup hp
  have hnone : (∀ pb ∈ g.passbands.values, pb.fullName ≠ key) → g.passbands.get? key = none := by
    intro h
    rw [Dict.get?_eq_none_iff]
    intro hk
    obtain ⟨⟨n, q⟩, hp, rfl⟩ := List.mem_map.1 hk
    exact h q (List.mem_map.2 ⟨(n, q), hp, rfl⟩) (hg.names n q hp).1
  have hwf : ∀ n, n ∈ withFilter g.passbands key ↔ ∃ pb, Matching g key pb ∧ pb.fullName = n := by
    intro n
    unfold withFilter Matching
    constructor
    · intro h
      obtain ⟨⟨m, q⟩, hp, rfl⟩ := List.mem_map.1 h
      rw [List.mem_filter] at hp
      exact ⟨q, ⟨List.mem_map.2 ⟨(m, q), hp.1, rfl⟩, by simpa using hp.2⟩, (hg.names m q hp.1).1⟩
    · rintro ⟨pb, ⟨h1, h2⟩, rfl⟩
      obtain ⟨⟨m, q⟩, hp, rfl⟩ := List.mem_map.1 h1
      refine List.mem_map.2 ⟨(m, q), List.mem_filter.2 ⟨hp, by simpa using h2⟩, ?_⟩
      exact (hg.names m q hp).1.symm
  have hnd : (withFilter g.passbands key).Nodup := by
    unfold withFilter
    exact hg.nodup.sublist (List.filter_sublist.map _)
  have hcont : g.contains key = true ↔ ∃ pb ∈ g.passbands.values, pb.fullName = key ∨ pb.filterName = key := by
    unfold PassbandGroup.contains
    rw [Bool.or_eq_true]
    constructor
    · rintro (h | h)
      · unfold Dict.has at h
        obtain ⟨pb, hpb⟩ := Option.isSome_iff_exists.1 h
        exact ⟨pb, List.mem_map.2 ⟨(key, pb), Dict.mem_of_get? hpb, rfl⟩, Or.inl (hg.names _ _ (Dict.mem_of_get? hpb)).1⟩
      · unfold Dict.has at h
        rw [filters_get hg] at h
        split at h
        · simp at h
        · rename_i hne
          obtain ⟨n, hn⟩ := List.exists_mem_of_ne_nil _ hne
          obtain ⟨pb, ⟨h1, h2⟩, _⟩ := (hwf n).1 hn
          exact ⟨pb, h1, Or.inr h2⟩
    · rintro ⟨pb, h1, h2 | h2⟩
      · left
        unfold Dict.has
        rw [← h2, hval pb h1]; rfl
      · right
        unfold Dict.has
        rw [filters_get hg, if_neg]
        · rfl
        · exact List.ne_nil_of_mem ((hwf pb.fullName).2 ⟨pb, ⟨h1, h2⟩, rfl⟩)
  refine ⟨?_, ?_, hcont, ?_⟩
  · intro pb hpb hk
    unfold PassbandGroup.getItem
    rw [← hk, hval pb hpb]
  · intro hno
    have hget := hnone hno
    refine ⟨?_, ?_, ?_⟩
    · intro pb hm huniq
      have hl : withFilter g.passbands key = [pb.fullName] := by
        have hall : ∀ n ∈ withFilter g.passbands key, n = pb.fullName := by
          intro n hn
          obtain ⟨pb', h1, h2⟩ := (hwf n).1 hn
          rw [← h2]; exact huniq pb' h1
        have hmem := (hwf pb.fullName).2 ⟨pb, hm, rfl⟩
        match hw : withFilter g.passbands key with
        | [] => rw [hw] at hmem; simp at hmem
        | [a] => rw [hall a (by rw [hw]; simp)]
        | a :: b :: l =>
          exfalso
          rw [hw] at hnd hall
          have h1 := hall a (by simp)
          have h2 := hall b (by simp)
          rw [h1, h2] at hnd
          simp at hnd
      unfold PassbandGroup.getItem
      rw [hget, filters_get hg, hl]
      simp [hval pb hm.1]
    · intro hm
      have hl : withFilter g.passbands key = [] := by
        cases hw : withFilter g.passbands key with
        | nil => rfl
        | cons a l =>
          obtain ⟨pb, h, _⟩ := (hwf a).1 (by rw [hw]; simp)
          exact absurd h (hm pb)
      unfold PassbandGroup.getItem
      rw [hget, filters_get hg, hl]
      simp
    · intro pb pb' h1 h2 hne
      have m1 := (hwf pb.fullName).2 ⟨pb, h1, rfl⟩
      have m2 := (hwf pb'.fullName).2 ⟨pb', h2, rfl⟩
      have hlen : 1 < (withFilter g.passbands key).length := by
        match hw : withFilter g.passbands key with
        | [] => rw [hw] at m1; simp at m1
        | [a] => rw [hw] at m1 m2; simp at m1 m2; exact absurd (m1.trans m2.symm) hne
        | a :: b :: l => simp
      unfold PassbandGroup.getItem
      rw [hget, filters_get hg, if_neg (List.ne_nil_of_mem m1)]
      simp [hlen]
  · intro filters
    unfold PassbandGroup.maskByFilter
    apply List.map_congr_left
    intro f _
    unfold PassbandGroup.contains
    congr 1
    · rw [Bool.eq_iff_iff, Dict.has_iff]; simp
    · rw [Bool.eq_iff_iff, Dict.has_iff]; simp

/-- C30 (bandflux by name), for unambiguous names. For every reachable group: when lookup returns a
band, the bandflux under that key is the one under the band's full name; when the key is neither a
full name nor a filter name, ValueError is raised. Missing: ambiguous filter names, see
`C30_ambiguous_counterexample`. -/
theorem C30_bandflux_partial (g : PassbandGroup K) (hr : Reachable g) (key : Name) (m : List (List K)) :
    (∀ pb, g.getItem key = .ok pb → g.bandflux m key = g.bandflux m pb.fullName ∧ g.passbands.get? pb.fullName = some pb) ∧
    (g.contains key = false → g.bandflux m key = .error .valueError) := by
  have hg := reachable_good hr
  constructor
  · intro pb h
    unfold PassbandGroup.getItem at h
    cases hk : g.passbands.get? key with
    | some q =>
      rw [hk] at h; cases h
      have := (hg.names _ _ (Dict.mem_of_get? hk)).1
      rw [this]; exact ⟨rfl, hk⟩
    | none =>
      rw [hk] at h
      simp only at h
      cases hf : g.filterToName.get? key with
      | none => rw [hf] at h; cases h
      | some l =>
        rw [hf] at h
        simp only at h
        split at h
        · cases h
        · split at h
          · rename_i pb' hpb
            cases h
            have hn := (hg.names _ _ (Dict.mem_of_get? hpb)).1
            rw [hn]
            refine ⟨?_, hpb⟩
            unfold PassbandGroup.bandflux
            simp only [hk, hf, hpb, Option.map_some]
          · cases h
  · intro h
    unfold PassbandGroup.contains at h
    rw [Bool.or_eq_false_iff] at h
    unfold Dict.has at h
    have h1 : g.passbands.get? key = none := by simpa using h.1
    have h2 : g.filterToName.get? key = none := by simpa using h.2
    unfold PassbandGroup.bandflux
    simp [h1, h2]

end LCL.PassbandGroupProps
