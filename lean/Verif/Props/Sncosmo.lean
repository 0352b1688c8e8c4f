import Verif.Model.Sncosmo
import Verif.Props.Salt2
import Verif.Props.Extrapolation

/-!
# C97: the sncosmo wrapper
-/

namespace LCL.SnProps
open LCL Sn

/-! ## What `set` of the source changes -/

theorem srcSet_outside (lib : Lib) : ∀ (l : List (Name × PVal ℝ)) (s : Name → ℝ) (n : Name), (∀ kv ∈ l, kv.1 ≠ n) →
    (srcSet lib s l).1 n = s n
  | [], s, n, _ => rfl
  | (k, v) :: rest, s, n, h => by
    unfold srcSet
    split
    · split
      · rfl
      · rw [srcSet_outside lib rest _ n fun kv hkv => h kv (List.mem_cons_of_mem _ hkv)]
        exact Function.update_of_ne (Ne.symm (h (k, v) List.mem_cons_self)) _ _
    · rfl

theorem srcSet_err (lib : Lib) : ∀ (l : List (Name × PVal ℝ)) (s s' : Name → ℝ), (srcSet lib s l).2 = (srcSet lib s' l).2
  | [], _, _ => rfl
  | (k, v) :: rest, s, s' => by
    unfold srcSet
    split
    · split
      · rfl
      · exact srcSet_err lib rest _ _
    · rfl

/-- After a successful `set` the values of the given names do not depend on the values before. -/
theorem srcSet_same (lib : Lib) : ∀ (l : List (Name × PVal ℝ)) (s s' : Name → ℝ), (srcSet lib s l).2 = none →
    ∀ n, (s n = s' n ∨ ∃ kv ∈ l, kv.1 = n) → (srcSet lib s l).1 n = (srcSet lib s' l).1 n
  | [], s, s', _, n, h => by
    rcases h with h | ⟨kv, hkv, _⟩
    · exact h
    · simp at hkv
  | (k, v) :: rest, s, s', he, n, h => by
    unfold srcSet at he ⊢
    split at he
    · rename_i hk
      rw [if_pos hk, if_pos hk]
      split at he
      · simp at he
      · rename_i x hx
        refine srcSet_same lib rest _ _ he n ?_
        by_cases hn : n = k
        · left; subst hn; simp
        · rcases h with h | ⟨kv, hkv, rfl⟩
          · left; rw [Function.update_of_ne hn, Function.update_of_ne hn, h]
          · rcases List.mem_cons.1 hkv with rfl | hkv
            · exact absurd rfl hn
            · exact .inr ⟨kv, hkv, rfl⟩
    · simp at he

theorem snParams_keys (p : Params ℝ) : ∀ (ks : List Name) {l}, snParams p ks = .ok l → l.map (·.1) = ks
  | [], l, h => by cases h; rfl
  | k :: ks, l, h => by
    unfold snParams at h
    split at h
    · cases h
    · split at h
      · cases h
      · rename_i l' hl'
        cases h
        simp [snParams_keys p ks hl']

/-- Two objects that differ at most in the values of the named source parameters. -/
structure Alike (m m' : Obj) : Prop where
  node : m.node = m'.node
  named : m.named = m'.named
  extrap : m.extrap = m'.extrap
  src : ∀ n, n ∉ m.named → m.src n = m'.src n

theorem Alike.refl (m : Obj) : Alike m m := ⟨rfl, rfl, rfl, fun _ _ => rfl⟩

theorem Alike.symm {m m' : Obj} (h : Alike m m') : Alike m' m :=
  ⟨h.node.symm, h.named.symm, h.extrap.symm, fun n hn => (h.src n (h.named ▸ hn)).symm⟩

theorem Alike.trans {a b c : Obj} (h : Alike a b) (h' : Alike b c) : Alike a c :=
  ⟨h.node.trans h'.node, h.named.trans h'.named, h.extrap.trans h'.extrap,
    fun n hn => (h.src n hn).trans (h'.src n (h.named ▸ hn))⟩

theorem update_alike (lib : Lib) (m : Obj) (st : SState ℝ) : Alike m (update lib m st).1 := by
  unfold update
  split
  · exact .refl m
  · split
    · exact .refl m
    · rename_i l hl
      refine ⟨rfl, rfl, rfl, fun n hn => ?_⟩
      dsimp only
      rw [srcSet_outside]
      intro kv hkv he
      apply hn
      rw [← snParams_keys _ _ hl, ← he]
      exact List.mem_map_of_mem hkv

theorem compute_alike (lib : Lib) (m : Obj) (st : SState ℝ) (times waves : List ℝ) :
    Alike m (compute lib m st times waves).1 := by
  unfold compute
  split
  · exact .refl m
  · have h := update_alike lib m st
    split
    · rename_i m' e he; rw [he] at h; exact h
    · rename_i m' he
      rw [he] at h
      split
      · exact h.trans (update_alike lib m' st)
      · exact h

theorem run_alike (lib : Lib) : ∀ (ops : List Op) (m : Obj), Alike m (run lib m ops)
  | [], m => .refl m
  | op :: ops, m => by
    have h : Alike m (step lib m op) := by
      cases op with
      | sample st => exact update_alike lib m st
      | compute st times waves => exact compute_alike lib m st times waves
    exact h.trans (run_alike lib ops (step lib m op))

/-- Alike objects are updated to alike objects, equal in all source values if the update succeeds. -/
theorem update_same (lib : Lib) {m m' : Obj} (h : Alike m m') (st : SState ℝ) :
    (update lib m st).2 = (update lib m' st).2 ∧
    ((update lib m st).2 = none → (update lib m st).1.src = (update lib m' st).1.src) := by
  unfold update
  rw [← h.node, ← h.named]
  cases localParams st m.node with
  | error e => exact ⟨rfl, fun h => by cases h⟩
  | ok p =>
    dsimp only
    cases hl : snParams p m.named with
    | error e => exact ⟨rfl, fun h => by cases h⟩
    | ok l =>
      dsimp only
      refine ⟨srcSet_err _ _ _ _, fun he => funext fun n => srcSet_same lib l _ _ he n ?_⟩
      by_cases hn : n ∈ m.named
      · right
        rw [← snParams_keys _ _ hl] at hn
        obtain ⟨kv, hkv, e⟩ := List.mem_map.1 hn
        exact ⟨kv, hkv, e⟩
      · exact .inl (h.src n hn)

theorem inner_same (lib : Lib) {m m' : Obj} (h : Alike m m') (st : SState ℝ) (times waves : List ℝ) :
    (inner lib m st times waves).2 = (inner lib m' st times waves).2 := by
  obtain ⟨h1, h2⟩ := update_same lib h st
  unfold inner
  rw [← h.node]
  cases localParams st m.node with
  | error e => rfl
  | ok p =>
    dsimp only
    rcases hu : update lib m st with ⟨a, ea⟩
    rcases hu' : update lib m' st with ⟨b, eb⟩
    rw [hu, hu'] at h1 h2
    dsimp only at h1 h2
    subst h1
    cases ea with
    | some e => rfl
    | none =>
      dsimp only
      split
      · rfl
      · unfold direct
        rw [h2 rfl]

/-- C97: the flux of a state does not depend on what was done with the model before: after any history of sampling
and evaluating, at whatever states and arguments, raising or not, computing the spectrum of a state gives the result
(or the exception) it gives on the untouched model. -/
theorem C97_repeatable (lib : Lib) (m : Obj) (ops : List Op) (st : SState ℝ) (times waves : List ℝ) :
    (compute lib (run lib m ops) st times waves).2 = (compute lib m st times waves).2 := by
  have h := run_alike lib ops m
  generalize run lib m ops = m' at h
  obtain ⟨h1, h2⟩ := update_same lib h st
  have ha := update_alike lib m st
  have ha' := update_alike lib m' st
  unfold compute
  rw [← h.node]
  cases localParams st m.node with
  | error e => rfl
  | ok p =>
    dsimp only
    rcases hu : update lib m st with ⟨a, ea⟩
    rcases hu' : update lib m' st with ⟨b, eb⟩
    rw [hu, hu'] at h1 h2
    rw [hu] at ha
    rw [hu'] at ha'
    dsimp only at h1 h2 ha ha'
    subst h1
    cases ea with
    | some e => rfl
    | none =>
      dsimp only
      have hab : Alike b a := (ha'.symm.trans h.symm).trans ha
      split
      · dsimp only
        have : (fun st ts ws => (inner lib b st ts ws).2) = fun st ts ws => (inner lib a st ts ws).2 := by
          funext st ts ws; exact inner_same lib hab st ts ws
        rw [this]
        unfold asSED
        rw [hab.node, hab.extrap]
      · dsimp only
        unfold direct
        rw [h2 rfl]

/-! ## Values -/

theorem snParams_ok (p : Params ℝ) (val : Name → ℝ) : ∀ (ks : List Name), (∀ n ∈ ks, p.get? n = some (.num (val n))) →
    snParams p ks = .ok (ks.map fun n => (n, .num (val n)))
  | [], _ => rfl
  | k :: ks, h => by
    unfold snParams
    rw [h k List.mem_cons_self]
    dsimp only
    rw [snParams_ok p val ks fun n hn => h n (List.mem_cons_of_mem _ hn)]
    rfl

theorem srcSet_ok (lib : Lib) (val : Name → ℝ) : ∀ (ks : List Name) (s : Name → ℝ), (∀ n ∈ ks, n ∈ lib.names) →
    srcSet lib s (ks.map fun n => (n, .num (val n))) = (fun n => if n ∈ ks then val n else s n, none)
  | [], s, _ => by simp [srcSet]
  | k :: ks, s, h => by
    rw [List.map_cons]
    unfold srcSet
    rw [if_pos (h k List.mem_cons_self)]
    dsimp only [number]
    rw [srcSet_ok lib val ks _ fun n hn => h n (List.mem_cons_of_mem _ hn)]
    congr 1
    funext n
    by_cases hk : n ∈ ks
    · simp [hk]
    · by_cases hn : n = k
      · subst hn; simp
      · simp [hk, hn, Function.update_of_ne hn]

theorem update_ok (lib : Lib) (m : Obj) (st : SState ℝ) (p : Params ℝ) (val : Name → ℝ) (hp : st.get? m.node = some p)
    (hv : ∀ n ∈ m.named, n ∈ lib.names ∧ p.get? n = some (.num (val n))) :
    update lib m st = ({ m with src := fun n => if n ∈ m.named then val n else m.src n }, none) := by
  unfold update localParams
  rw [hp]
  dsimp only
  rw [snParams_ok p val m.named fun n hn => (hv n hn).2]
  dsimp only
  rw [srcSet_ok lib val m.named m.src fun n hn => (hv n hn).1]

theorem goodUnits : UnitSpec.GoodUnits Salt2.unitAA Salt2.unitFlam Salt2.unitNJy := by
  constructor
  · exact ⟨rfl, by unfold Salt2.unitAA; norm_num⟩
  · exact ⟨rfl, by unfold Salt2.unitFlam; norm_num⟩
  · exact ⟨rfl, by unfold Salt2.unitNJy; norm_num⟩

theorem toFnu_ok (T : Nat) (a : Mat ℝ) (waves : List ℝ) :
    ∃ r, toFnu T waves.length a waves = .ok r ∧ r.length = T ∧ (∀ row ∈ r, row.length = waves.length) ∧
      ∀ (i j : Nat) (w : ℝ), i < T → waves[j]? = some w →
        (r.getD i []).getD j 0 / 10 ^ 35 = (a.getD i []).getD j 0 * 10 ^ 7 * (w / 10 ^ 10) ^ 2 / 299792458 := by
  obtain ⟨r, hr, hs, he⟩ := (UnitProps.C52_physical (UnitSpec.WaveFor.row (flux := ⟨[waves.length, T],
    fun i => (a.getD (i.getD 1 0) []).getD (i.headD 0) 0⟩) (w := ⟨[waves.length], fun i => waves.getD (i.headD 0) 0⟩)
    rfl rfl) goodUnits).1
  unfold toFnu
  rw [hr]
  refine ⟨_, rfl, by simp, by simp, fun i j w hi hj => ?_⟩
  obtain ⟨hj', e⟩ := List.getElem?_eq_some_iff.1 hj
  have := he [j, i] ⟨hj', hi, trivial⟩
  have e2 : waves.getD j 0 = w := by rw [List.getD_eq_getElem?_getD, hj]; rfl
  dsimp only at this
  simp only [List.headD_cons, e2] at this
  unfold Salt2.unitNJy Salt2.unitFlam Salt2.unitAA at this
  dsimp only at this
  have e3 : (((List.range T).map fun i => (List.range waves.length).map fun j => r.get [j, i]).getD i []).getD j 0 = r.get [j, i] := by
    simp [List.getD_eq_getElem?_getD, hi, hj']
  rw [e3, div_eq_mul_one_div, this]
  have e4 : List.getD [j, i] 1 0 = i := rfl
  rw [e4]
  ring

/-- C97: the spectrum of a state, at wavelengths within the source's range: the source's F_lambda at the phases
`t - t0` and at the state's values of the parameters the user named, the source's own values of the others,
converted from erg/s/cm^2/AA to nJy. An exception of the source is passed on. -/
theorem C97_value (lib : Lib) (m : Obj) (st : SState ℝ) (p : Params ℝ) (val : Name → ℝ) (t0 : ℝ) (times waves : List ℝ)
    (hp : st.get? m.node = some p) (ht : p.get? t0Key = some (.num t0))
    (hv : ∀ n ∈ m.named, n ∈ lib.names ∧ p.get? n = some (.num (val n)))
    (hw : ∀ w ∈ waves, lib.minwave ≤ w ∧ w ≤ lib.maxwave) :
    (∀ flux, lib.flux (fun n => if n ∈ m.named then val n else m.src n) (times.map fun t => t - t0) waves = .ok flux →
      ∃ a, (compute lib m st times waves).2 = .ok a ∧ a.length = times.length ∧ (∀ row ∈ a, row.length = waves.length) ∧
        ∀ (i j : Nat) (w : ℝ), i < times.length → waves[j]? = some w →
          (a.getD i []).getD j 0 / 10 ^ 35 = (flux.getD i []).getD j 0 * 10 ^ 7 * (w / 10 ^ 10) ^ 2 / 299792458) ∧
    (∀ e, lib.flux (fun n => if n ∈ m.named then val n else m.src n) (times.map fun t => t - t0) waves = .error e →
      (compute lib m st times waves).2 = .error e) := by
  have ho : outside lib waves = false := by
    unfold outside
    rw [List.any_eq_false]
    intro w hw'
    have := hw w hw'
    simp [this.1, this.2]
  have key : (compute lib m st times waves).2 =
      direct lib { m with src := fun n => if n ∈ m.named then val n else m.src n } p times waves := by
    unfold compute
    rw [update_ok lib m st p val hp hv]
    unfold localParams
    rw [hp]
    dsimp only
    rw [ho]
    simp
  rw [key]
  unfold direct t0Of
  rw [ht]
  dsimp only
  constructor
  · intro flux hf
    rw [hf]
    exact toFnu_ok times.length flux waves
  · intro e hf
    rw [hf]

/-- C97: outside the source's wavelength range, without an extrapolation, the spectrum is zero, and the columns inside
are those of the source asked for the inside wavelengths and the two edges only. -/
theorem C97_outside (lib : Lib) (m : Obj) (st : SState ℝ) (times waves : List ℝ) (a : Mat ℝ)
    (hr : lib.minwave ≤ lib.maxwave) (hx : m.extrap = none) (hout : ∃ w ∈ waves, w < lib.minwave ∨ lib.maxwave < w)
    (h : (compute lib m st times waves).2 = .ok a) :
    ∃ flux, (compute lib m st times (lib.minwave :: waves.filter (fun w => decide (lib.minwave ≤ w ∧ w ≤ lib.maxwave)) ++
        [lib.maxwave])).2 = .ok flux ∧
      a.length = times.length ∧ (∀ row ∈ a, row.length = waves.length) ∧
      a.map (gather (waves.map fun w => decide (lib.minwave ≤ w ∧ w ≤ lib.maxwave))) = flux.map (fun row => row.tail.dropLast) ∧
      a.map (gather (waves.map fun w => decide (w < lib.minwave))) =
        times.map (fun _ => (waves.filter fun w => decide (w < lib.minwave)).map fun _ => 0) ∧
      a.map (gather (waves.map fun w => decide (lib.maxwave < w))) =
        times.map (fun _ => (waves.filter fun w => decide (lib.maxwave < w)).map fun _ => 0) := by
  have ho : outside lib waves = true := by
    unfold outside
    obtain ⟨w, hw, h⟩ := hout
    rw [List.any_eq_true]
    exact ⟨w, hw, by simpa using h⟩
  have hi : outside lib (lib.minwave :: waves.filter (fun w => decide (lib.minwave ≤ w ∧ w ≤ lib.maxwave)) ++ [lib.maxwave]) = false := by
    unfold outside
    rw [List.any_eq_false]
    intro w hw
    have : lib.minwave ≤ w ∧ w ≤ lib.maxwave := by
      simp only [List.cons_append, List.mem_cons, List.mem_append, List.mem_filter, List.not_mem_nil, or_false,
        decide_eq_true_iff] at hw
      rcases hw with rfl | ⟨-, h⟩ | rfl
      · exact ⟨le_rfl, hr⟩
      · exact h
      · exact ⟨hr, le_rfl⟩
    simp [this.1, this.2]
  unfold compute at h
  cases hlp : localParams st m.node with
  | error e => rw [hlp] at h; cases h
  | ok p =>
  rw [hlp] at h
  dsimp only at h
  rcases hu : update lib m st with ⟨m', e⟩
  have hal := update_alike lib m st
  have hsame := update_same lib hal st
  rw [hu] at h hal hsame
  cases e with
  | some e => cases h
  | none =>
  dsimp only at h hal hsame
  rw [if_pos ho] at h
  dsimp only at h
  obtain ⟨lo, hi', e1, e2, -, -, -, hgen⟩ := ExtrapolationProps.C34_columns _ () () times waves st a
    (by intro l h' hl hh; cases hl; cases hh; exact hr) h
  have e1 : lo = lib.minwave := e1 _ rfl
  have e2 : hi' = lib.maxwave := e2 _ rfl
  subst e1; subst e2
  obtain ⟨flux, hf, h1, h2, h3, h4, -⟩ := hgen hout
  have hx' : m'.extrap = none := hal.extrap ▸ hx
  refine ⟨flux, ?_, h1, h2, h3, (h4 hx').1, (h4 hx').2⟩
  have hf' : (inner lib m' st times (lib.minwave :: waves.filter (fun w => decide (lib.minwave ≤ w ∧ w ≤ lib.maxwave)) ++
      [lib.maxwave])).2 = .ok flux := hf
  rw [inner_same lib hal.symm] at hf'
  rw [← hf']
  unfold compute inner
  rw [hlp, hu]
  dsimp only
  rw [hi]
  simp

/-- C97: the constructor names exactly the given parameters that the source has, and starts from the source's own
values; hence `C97_value` applies to every state in which they are numbers. -/
theorem C97_init (lib : Lib) (node : Name) (base : Dict Name ℝ) (attrs : List Name) (src : Name → ℝ)
    (extrap : Option (ℝ → List ℝ → List ℝ → Mat ℝ)) (kwargs : Dict Name ℝ) (n : Name) :
    (n ∈ (init lib node base attrs src extrap kwargs).named ↔ n ∈ kwargs.keys ∧ n ∈ lib.names) ∧
    (init lib node base attrs src extrap kwargs).src n = src n := by
  simp [init]

/-! ## `set` -/

theorem setLoop_ok : ∀ (kwargs : List (Name × ℝ)) (m : Obj), (∀ kv ∈ kwargs, kv.1 ∉ m.attrs) →
    (setLoop m kwargs).2 = none ∧ (setLoop m kwargs).1.node = m.node ∧ (setLoop m kwargs).1.src = m.src ∧
    (setLoop m kwargs).1.extrap = m.extrap ∧
    ∀ n, n ∈ (setLoop m kwargs).1.named ↔ n ∈ m.named ∨ n ∈ kwargs.map (·.1)
  | [], m, _ => ⟨rfl, rfl, rfl, rfl, by simp [setLoop]⟩
  | (k, v) :: rest, m, h => by
    have hk := h (k, v) List.mem_cons_self
    unfold setLoop
    rw [if_neg (fun hh => hk hh.2)]
    obtain ⟨h1, h2, h3, h4, h5⟩ := setLoop_ok rest { m with
      setters := m.setters.set k v
      named := if k ∈ m.named then m.named else m.named ++ [k] } fun kv hkv => h kv (List.mem_cons_of_mem _ hkv)
    refine ⟨h1, h2, h3, h4, fun n => ?_⟩
    rw [h5 n]
    dsimp only
    by_cases hm : k ∈ m.named
    · rw [if_pos hm]
      simp only [List.map_cons, List.mem_cons]
      constructor
      · rintro (h | h)
        · exact .inl h
        · exact .inr (.inr h)
      · rintro (h | rfl | h)
        · exact .inl h
        · exact .inl hm
        · exact .inr h
    · rw [if_neg hm]
      simp [or_assoc]

theorem srcSet_const (lib : Lib) : ∀ (kwargs : List (Name × ℝ)) (s : Name → ℝ), (kwargs.map (·.1)).Nodup →
    (∀ kv ∈ kwargs, kv.1 ∈ lib.names) →
    (srcSet lib s (kwargs.map fun kv => (kv.1, PVal.num kv.2))).2 = none ∧
    (∀ kv ∈ kwargs, (srcSet lib s (kwargs.map fun kv => (kv.1, PVal.num kv.2))).1 kv.1 = kv.2)
  | [], s, _, _ => ⟨rfl, by simp⟩
  | (k, v) :: rest, s, hnd, h => by
    rw [List.map_cons, List.nodup_cons] at hnd
    rw [List.map_cons]
    unfold srcSet
    rw [if_pos (h (k, v) List.mem_cons_self)]
    dsimp only [number]
    obtain ⟨h1, h2⟩ := srcSet_const lib rest (Function.update s k v) hnd.2 fun kv hkv => h kv (List.mem_cons_of_mem _ hkv)
    refine ⟨h1, fun kv hkv => ?_⟩
    rcases List.mem_cons.1 hkv with rfl | hkv
    · rw [srcSet_outside]
      · simp
      · intro kv hkv he
        obtain ⟨kv', hkv', rfl⟩ := List.mem_map.1 hkv
        exact hnd.1 (List.mem_map.2 ⟨kv', hkv', he⟩)
    · exact h2 kv hkv

/-- C97: `set` of parameters that the source has succeeds, `get` reads the values back, and from then on these
parameters are taken from the sampled states, as in `C97_value`. -/
theorem C97_set (lib : Lib) (m : Obj) (kwargs : List (Name × ℝ)) (hnd : (kwargs.map (·.1)).Nodup)
    (hk : ∀ kv ∈ kwargs, kv.1 ∈ lib.names ∧ kv.1 ∉ m.attrs) :
    (set lib m kwargs).2 = none ∧ (∀ kv ∈ kwargs, get lib (set lib m kwargs).1 kv.1 = .ok kv.2) ∧
    (∀ n ∉ kwargs.map (·.1), get lib (set lib m kwargs).1 n = get lib m n) ∧
    ∀ n, n ∈ (set lib m kwargs).1.named ↔ n ∈ m.named ∨ n ∈ kwargs.map (·.1) := by
  obtain ⟨h1, h2, h3, h4, h5⟩ := setLoop_ok kwargs m fun kv hkv => (hk kv hkv).2
  rcases hl : setLoop m kwargs with ⟨m', e⟩
  rw [hl] at h1 h2 h3 h4 h5
  dsimp only at h1 h2 h3 h4 h5
  subst h1
  have e : set lib m kwargs = ({ m' with src := (srcSet lib m'.src (kwargs.map fun kv => (kv.1, PVal.num kv.2))).1 },
      (srcSet lib m'.src (kwargs.map fun kv => (kv.1, PVal.num kv.2))).2) := by
    unfold Sn.set; rw [hl]
  obtain ⟨g1, g2⟩ := srcSet_const lib kwargs m'.src hnd fun kv hkv => (hk kv hkv).1
  rw [e]
  refine ⟨g1, fun kv hkv => ?_, fun n hn => ?_, h5⟩
  · unfold Sn.get
    rw [if_pos (hk kv hkv).1]
    dsimp only
    rw [g2 kv hkv]
  · unfold Sn.get
    dsimp only
    rw [srcSet_outside, h3]
    intro kv hkv he
    obtain ⟨kv', hkv', rfl⟩ := List.mem_map.1 hkv
    exact hn (List.mem_map.2 ⟨kv', hkv', he⟩)

theorem srcSet_fails (lib : Lib) (key : Name) (hkey : key ∉ lib.names) : ∀ (l : List (Name × PVal ℝ)) (s : Name → ℝ),
    key ∈ l.map (·.1) → ∃ e, (srcSet lib s l).2 = some e
  | (k, v) :: rest, s, h => by
    unfold srcSet
    split
    · rename_i hk
      split
      · exact ⟨_, rfl⟩
      · refine srcSet_fails lib key hkey rest _ ?_
        rcases List.mem_cons.1 h with rfl | h
        · exact absurd hk hkey
        · exact h
    · exact ⟨_, rfl⟩

/-- C97 fails after a failing `set`: giving `set` a parameter that the source does not have (such as the wrapper's own
`t0`) raises KeyError, but the name stays registered, and from then on every spectrum, at every state, raises. -/
theorem C97_set_counterexample (lib : Lib) (m : Obj) (key : Name) (v : ℝ) (hkey : key ∉ lib.names)
    (ha : key ∉ m.attrs ∨ m.setters.has key = true) :
    (set lib m [(key, v)]).2 = some .keyError ∧
    ∀ ops st times waves, ∃ e, (compute lib (run lib (set lib m [(key, v)]).1 ops) st times waves).2 = .error e := by
  have hs : setLoop m [(key, v)] = ({ m with
      setters := m.setters.set key v
      named := if key ∈ m.named then m.named else m.named ++ [key] }, none) := by
    unfold setLoop
    rw [if_neg]
    · rfl
    · rintro ⟨h1, h2⟩
      rcases ha with ha | ha
      · exact ha h2
      · rw [h1] at ha; cases ha
  have hset : set lib m [(key, v)] = ({ m with
      setters := m.setters.set key v
      named := if key ∈ m.named then m.named else m.named ++ [key] }, some .keyError) := by
    unfold Sn.set
    rw [hs]
    simp [srcSet, hkey]
  rw [hset]
  refine ⟨rfl, fun ops st times waves => ?_⟩
  rw [C97_repeatable]
  dsimp only
  generalize hm : ({ m with
      setters := m.setters.set key v
      named := if key ∈ m.named then m.named else m.named ++ [key] } : Obj) = m'
  have hmem : key ∈ m'.named := by
    subst hm
    dsimp only
    split
    · assumption
    · simp
  unfold compute
  cases localParams st m'.node with
  | error e => exact ⟨e, rfl⟩
  | ok p =>
    dsimp only
    have : ∃ e, (update lib m' st).2 = some e := by
      unfold update
      cases localParams st m'.node with
      | error e => exact ⟨e, rfl⟩
      | ok p =>
        dsimp only
        cases hl : snParams p m'.named with
        | error e => exact ⟨e, rfl⟩
        | ok l =>
          dsimp only
          exact srcSet_fails lib key hkey l _ (by rw [snParams_keys _ _ hl]; exact hmem)
    obtain ⟨e, he⟩ := this
    rcases hu : update lib m' st with ⟨a, ea⟩
    rw [hu] at he
    dsimp only at he
    subst he
    exact ⟨e, rfl⟩

/-! ## Non-vacuity -/

/-- A source with one parameter: a flat spectrum of that amplitude between 1000 and 9000. -/
noncomputable def flatLib : Lib where
  names := ["amplitude".toList]
  flux := fun s ts ws => .ok (ts.map fun _ => ws.map fun _ => s "amplitude".toList)
  minwave := 1000
  maxwave := 9000
  minphase := -10
  maxphase := 50

noncomputable def flatObj : Obj := init flatLib "sn".toList [(t0Key, 0)] [] (fun _ => 1) none [("amplitude".toList, 5)]

example : ∃ a, (compute flatLib flatObj [("sn".toList, [(t0Key, .num 3), ("amplitude".toList, .num 5)])] [1, 2] [2000, 3000]).2 = .ok a ∧
    a.length = 2 := by
  obtain ⟨a, h1, h2, -⟩ := (C97_value flatLib flatObj [("sn".toList, [(t0Key, .num 3), ("amplitude".toList, .num 5)])]
    [(t0Key, .num 3), ("amplitude".toList, .num 5)] (fun _ => 5) 3 [1, 2] [2000, 3000] rfl rfl
    (by
      intro n hn
      have : n = "amplitude".toList := by simpa [flatObj, init, flatLib, Dict.keys] using hn
      subst this
      exact ⟨by simp [flatLib], rfl⟩)
    (by intro w hw; simp only [List.mem_cons, List.not_mem_nil, or_false] at hw; rcases hw with rfl | rfl <;> norm_num [flatLib])).1 _ rfl
  exact ⟨a, h1, h2⟩

example : (set flatLib flatObj [("t0".toList, 4)]).2 = some .keyError :=
  (C97_set_counterexample flatLib flatObj "t0".toList 4 (by simp [flatLib]) (.inl (by simp [flatObj, init]))).1

end LCL.SnProps
