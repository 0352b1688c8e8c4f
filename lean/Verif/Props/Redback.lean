import Verif.Model.Redback
import Verif.Props.Sncosmo

/-!
# C103: the redback wrapper
-/

namespace LCL.RedbackProps
open LCL Redback

variable {V R : Type}

/-! ## The constructor -/

theorem merge_get : ∀ (priors : List (Name × V)) (d : Dict Name V) (k : Name),
    (merge d priors).get? k = (d.get? k).or (Dict.get? priors k)
  | [], d, k => by simp [merge, Dict.get?]
  | (k', v) :: rest, d, k => by
    unfold merge
    rw [merge_get rest]
    by_cases h : d.has k' = true
    · rw [if_pos h]
      by_cases hk : k' = k
      · subst hk
        have : d.get? k' ≠ none := by
          intro hn
          rw [Dict.has, hn] at h
          cases h
        obtain ⟨w, hw⟩ := Option.ne_none_iff_exists'.1 this
        simp [hw]
      · rw [Dict.get?_cons, if_neg hk]
    · rw [if_neg h]
      by_cases hk : k' = k
      · subst hk
        have : d.get? k' = none := by
          rw [Dict.has] at h
          simpa using h
        simp [Dict.get?_set_self, this, Dict.get?_cons]
      · rw [Dict.get?_set_ne _ _ hk, Dict.get?_cons, if_neg hk]

theorem merge_nodup : ∀ (priors : List (Name × V)) (d : Dict Name V), d.keys.Nodup → (merge d priors).keys.Nodup
  | [], _, h => h
  | (k', v) :: rest, d, h => by
    unfold merge
    refine merge_nodup rest _ ?_
    split
    · exact h
    · exact Dict.nodup_set h _ _

theorem addAll_spec (attrs : List Name) : ∀ (l : List (Name × V)) (s : Dict Name V) (named : List Name) (s' : Dict Name V) (named' : List Name),
    (l.map (·.1)).Nodup → addAll attrs s named l = .ok (s', named') →
    named' = named ++ l.map (·.1) ∧ ∀ k, s'.get? k = (Dict.get? l k).or (s.get? k)
  | [], s, named, s', named', _, h => by
    unfold addAll at h
    cases h
    simp [Dict.get?]
  | (k', v) :: rest, s, named, s', named', hn, h => by
    unfold addAll at h
    split at h
    · cases h
    · rw [List.map_cons, List.nodup_cons] at hn
      obtain ⟨h1, h2⟩ := addAll_spec attrs rest _ _ _ _ hn.2 h
      refine ⟨by simp [h1], fun k => ?_⟩
      rw [h2 k, Dict.get?_cons]
      by_cases hk : k' = k
      · subst hk
        have : Dict.get? rest k' = none := (Dict.get?_eq_none_iff _ _).2 hn.1
        rw [this, if_pos rfl, Dict.get?_set_self]
        rfl
      · rw [if_neg hk, Dict.get?_set_ne _ _ hk]

theorem addAll_ok (attrs : List Name) : ∀ (l : List (Name × V)) (s : Dict Name V) (named : List Name),
    (∀ kv ∈ l, kv.1 ∈ attrs → s.has kv.1 = true) → ∃ r, addAll attrs s named l = .ok r
  | [], s, named, _ => ⟨_, rfl⟩
  | (k', v) :: rest, s, named, h => by
    unfold addAll
    rw [if_neg]
    · refine addAll_ok attrs rest _ _ fun kv hkv ha => ?_
      have := h kv (List.mem_cons_of_mem _ hkv) ha
      rw [Dict.has_iff] at this ⊢
      exact (Dict.mem_keys_set _ _ _ _).2 (.inr this)
    · rintro ⟨h1, h2⟩
      rw [h (k', v) List.mem_cons_self h2] at h1
      cases h1

/-- **C103** (partial: a name that is an output of the priors and a keyword argument is not refused, `C103_prior_counterexample`). A model that is
constructed has as parameters of the redback source exactly the names of the dictionary and the outputs of the priors, each once; each is set from
the dictionary if it is there and from the priors otherwise; every other parameter is what the keyword arguments make it; and the model does not
apply the redshift. -/
theorem C103_init_partial {base : Dict Name V → Except Err (Dict Name V)} {attrs : List Name} {node : Name} {source : Source}
    {extrap : Option (ℝ → List ℝ → List ℝ → Mat ℝ)} {priors : List (Name × V)} {parameters kwargs : Dict Name V} {m : Obj V}
    (hd : parameters.keys.Nodup) (h : init base attrs node source extrap priors parameters kwargs = .ok m) :
    (∀ k ∈ parameters.keys, k ∉ kwargs.keys) ∧
    m.named.Nodup ∧ (∀ k, k ∈ m.named ↔ k ∈ parameters.keys ∨ k ∈ priors.map (·.1)) ∧
    (∃ own, base kwargs = .ok own ∧
      ∀ k, m.setters.get? k = ((parameters.get? k).or (Dict.get? priors k)).or (own.get? k)) ∧
    m.applyRedshift = false ∧ m.node = node ∧ m.source = source ∧ m.extrap = extrap := by
  unfold init at h
  split at h
  · cases h
  · rename_i hc
    split at h
    · cases h
    · rename_i own ho
      split at h
      · cases h
      · rename_i s' named' ha
        cases h
        have hm := merge_nodup priors parameters hd
        obtain ⟨h1, h2⟩ := addAll_spec attrs _ _ _ _ _ hm ha
        refine ⟨fun k hk hk' => ?_, ?_, fun k => ?_, ⟨own, ho, fun k => ?_⟩, rfl, rfl, rfl, rfl⟩
        · apply hc
          unfold clash
          rw [List.any_eq_true]
          exact ⟨k, hk, (Dict.has_iff _ _).2 hk'⟩
        · dsimp only
          rw [h1, List.nil_append]
          exact hm
        · dsimp only
          rw [h1, List.nil_append]
          have e : k ∈ (merge parameters priors).map (·.1) ↔ (merge parameters priors).get? k ≠ none := by
            rw [Ne, Dict.get?_eq_none_iff, not_not]
            rfl
          rw [e, merge_get, Ne, Option.or_eq_none_iff, Dict.get?_eq_none_iff, Dict.get?_eq_none_iff]
          unfold Dict.keys
          tauto
        · dsimp only
          rw [h2 k, merge_get]

/-- **C103.** A name given in the dictionary and as a keyword argument: ValueError. -/
theorem C103_refused (base : Dict Name V → Except Err (Dict Name V)) (attrs : List Name) (node : Name) (source : Source)
    (extrap : Option (ℝ → List ℝ → List ℝ → Mat ℝ)) (priors : List (Name × V)) (parameters kwargs : Dict Name V) (k : Name)
    (h1 : k ∈ parameters.keys) (h2 : k ∈ kwargs.keys) :
    init base attrs node source extrap priors parameters kwargs = .error .valueError := by
  unfold init
  rw [if_pos]
  unfold clash
  rw [List.any_eq_true]
  exact ⟨k, h1, (Dict.has_iff _ _).2 h2⟩

/-- **C103.** Otherwise the construction succeeds, if that of the base class does and no name is that of an attribute. -/
theorem C103_accepted (base : Dict Name V → Except Err (Dict Name V)) (attrs : List Name) (node : Name) (source : Source)
    (extrap : Option (ℝ → List ℝ → List ℝ → Mat ℝ)) (priors : List (Name × V)) (parameters kwargs own : Dict Name V)
    (h : ∀ k ∈ parameters.keys, k ∉ kwargs.keys) (ho : base kwargs = .ok own)
    (ha : ∀ k, k ∈ parameters.keys ∨ k ∈ priors.map (·.1) → k ∈ attrs → k ∈ own.keys) :
    ∃ m, init base attrs node source extrap priors parameters kwargs = .ok m := by
  unfold init
  rw [if_neg, ho]
  · dsimp only
    obtain ⟨r, hr⟩ := addAll_ok attrs (merge parameters priors) own [] fun kv hkv hka => by
      rw [Dict.has_iff]
      refine ha _ ?_ hka
      have : (merge parameters priors).get? kv.1 ≠ none := by
        rw [Ne, Dict.get?_eq_none_iff, not_not]
        exact List.mem_map_of_mem hkv
      rw [merge_get, Ne, Option.or_eq_none_iff, Dict.get?_eq_none_iff, Dict.get?_eq_none_iff] at this
      unfold Dict.keys at this ⊢
      tauto
    rw [hr]
    exact ⟨_, rfl⟩
  · unfold clash
    rw [List.any_eq_true]
    rintro ⟨k, hk, hk'⟩
    exact h k hk ((Dict.has_iff _ _).1 hk')

/-- **C103, where the code falls short.** A name that is an output of the priors and also a keyword argument is accepted, and the keyword argument
has no effect: the parameter is set from the priors. -/
theorem C103_prior_counterexample {base : Dict Name V → Except Err (Dict Name V)} {attrs : List Name} {node : Name} {source : Source}
    {extrap : Option (ℝ → List ℝ → List ℝ → Mat ℝ)} {kwargs own : Dict Name V} {k : Name} {v : V}
    (ho : base kwargs = .ok own) (hown : ∀ n ∈ kwargs.keys, n ∈ own.keys) (hk : k ∈ kwargs.keys) :
    ∃ m, init base attrs node source extrap [(k, v)] [] kwargs = .ok m ∧ m.setters.get? k = some v := by
  obtain ⟨m, hm⟩ := C103_accepted base attrs node source extrap [(k, v)] [] kwargs own (by simp [Dict.keys]) ho
    (by
      rintro n (hn | hn) _
      · simp [Dict.keys] at hn
      · simp only [List.map_cons, List.map_nil, List.mem_singleton] at hn
        subst hn
        exact hown _ hk)
  refine ⟨m, hm, ?_⟩
  obtain ⟨_, _, _, ⟨own', _, h⟩, _⟩ := C103_init_partial (by simp [Dict.keys]) hm
  rw [h k]
  simp [Dict.get?]

/-! ## Spectra -/

theorem npMin_le : ∀ (l : List ℝ) (x : ℝ), (∀ y ∈ l, 0 ≤ y) → 0 ≤ x → 0 ≤ l.foldl min x
  | [], _, _, hx => hx
  | y :: l, x, h, hx => npMin_le l _ (fun z hz => h z (List.mem_cons_of_mem _ hz)) (le_min hx (h y List.mem_cons_self))

/-- Without a range of wavelengths of its own, the base class asks for all wavelengths. -/
theorem sed_direct (m : Obj V) (rest obs : List (Effect V R ℝ)) (f : SState ℝ → List ℝ → List ℝ → Except Err (Mat ℝ)) (times waves : List ℝ)
    (st : SState ℝ) (hne : waves ≠ []) (h0 : ∀ w ∈ waves, 0 ≤ w) :
    (asSED m rest obs f).sedExtrapolated () times waves st () = f st times waves := by
  obtain ⟨w, l, rfl⟩ := List.exists_cons_of_ne_nil hne
  unfold SEDModel.sedExtrapolated npMin npMax asSED
  dsimp only
  rw [if_pos]
  refine ⟨?_, le_refl _⟩
  exact npMin_le l w (fun y hy => h0 y (List.mem_cons_of_mem _ hy)) (h0 w List.mem_cons_self)

theorem evaluate_eq (m : Obj V) (hz : m.applyRedshift = false) (limit : Nat) (times waves : List ℝ) (st : SState ℝ) (r : R) (p : Params ℝ)
    (hp : st.get? m.node = some p) (hne : waves ≠ []) (h0 : ∀ w ∈ waves, 0 ≤ w) :
    evaluate m limit [] [] times waves st r = (compute m limit st times waves).map fun a => (a, r) := by
  unfold evaluate SEDModel.evaluateSingle
  have e1 : localParams st (asSED (R := R) m [] [] (compute m limit)).nodeString = .ok p := by
    unfold localParams asSED
    rw [hp]
  have e2 : redshiftOf (asSED (R := R) m [] [] (compute m limit)).applyRedshift p = .ok none := by
    unfold asSED redshiftOf
    simp [hz]
  rw [e1]
  dsimp only
  rw [e2]
  dsimp only
  rw [show restTimesOf none times = times from rfl, show restWavesOf none waves = waves from rfl, sed_direct _ _ _ _ _ _ _ hne h0]
  cases compute m limit st times waves with
  | error e => rfl
  | ok a => rfl

/-- The model at a state: the source is built at the times shifted by `t0` from exactly the named parameters. -/
theorem compute_args (m : Obj V) (n : Nat) (st : SState ℝ) (p : Params ℝ) (val : Name → PVal ℝ) (t0 : ℝ) (times waves : List ℝ)
    (hp : st.get? m.node = some p) (ht : t0Of p = .ok t0) (hv : ∀ k ∈ m.named, p.get? k = some (val k)) :
    compute m (n + 1) st times waves =
      match m.source (times.map fun t => t - t0) (m.named.map fun k => (k, val k)) with
      | .error e => .error e
      | .ok rb =>
        if outside rb waves then
          (asSED (R := Unit) m [] [] (compute m n)).sedExtrapolated () times waves st ()
        else match rb.flux (times.map fun t => t - t0) waves with
          | .error e => .error e
          | .ok a => Sn.toFnu times.length waves.length a waves := by
  have hs : ∀ (ks : List Name), (∀ k ∈ ks, p.get? k = some (val k)) → Sn.snParams p ks = .ok (ks.map fun k => (k, val k)) := by
    intro ks
    induction ks with
    | nil => intro _; rfl
    | cons k ks ih =>
      intro h
      unfold Sn.snParams
      rw [h k List.mem_cons_self]
      dsimp only
      rw [ih fun k hk => h k (List.mem_cons_of_mem _ hk)]
      rfl
  have e1 : localParams st m.node = .ok p := by
    unfold localParams
    rw [hp]
  conv_lhs => unfold compute
  rw [e1]
  dsimp only
  rw [hs m.named hv]
  dsimp only
  rw [ht]
  rfl

/-- `t0` as the user sees it: the sampled value, and 0 where it is missing or `None`. -/
def startTime (p : Params ℝ) (t0 : ℝ) : Prop :=
  p.get? "t0".toList = some (.num t0) ∨ (t0 = 0 ∧ (p.get? "t0".toList = none ∨ p.get? "t0".toList = some .none))

theorem startTime_ok {p : Params ℝ} {t0 : ℝ} (h : startTime p t0) : t0Of p = .ok t0 := by
  unfold t0Of t0Key
  rcases h with h | ⟨rfl, h | h⟩ <;> rw [h]

/-- **C103** (partial: only for wavelengths in the range of the redback source, see `C103_outside_counterexample`). The spectrum of a constructed
model: the source is called once, with the times counted from `t0` and exactly its named parameters at their sampled values; the value at each
time and wavelength is the flux density of the source converted to nJy, and no redshift is applied to times, wavelengths or flux. An exception
raised by the source is passed on. -/
theorem C103_value_partial {base : Dict Name V → Except Err (Dict Name V)} {attrs : List Name} {node : Name} {source : Source}
    {extrap : Option (ℝ → List ℝ → List ℝ → Mat ℝ)} {priors : List (Name × V)} {parameters kwargs : Dict Name V} {m : Obj V}
    (hm : init base attrs node source extrap priors parameters kwargs = .ok m) (limit : Nat) (hl : 0 < limit)
    (st : SState ℝ) (p : Params ℝ) (val : Name → PVal ℝ) (t0 : ℝ) (times waves : List ℝ) (r : R)
    (hp : st.get? node = some p) (ht : startTime p t0) (hv : ∀ k ∈ m.named, p.get? k = some (val k))
    (hne : waves ≠ []) (h0 : ∀ w ∈ waves, 0 ≤ w) :
    (∀ rb flux, source (times.map fun t => t - t0) (m.named.map fun k => (k, val k)) = .ok rb →
      (∀ w ∈ waves, rb.minwave ≤ w ∧ w ≤ rb.maxwave) → rb.flux (times.map fun t => t - t0) waves = .ok flux →
      ∃ a, evaluate m limit [] [] times waves st r = .ok (a, r) ∧ a.length = times.length ∧ (∀ row ∈ a, row.length = waves.length) ∧
        ∀ (i j : Nat) (w : ℝ), i < times.length → waves[j]? = some w →
          (a.getD i []).getD j 0 / 10 ^ 35 = (flux.getD i []).getD j 0 * 10 ^ 7 * (w / 10 ^ 10) ^ 2 / 299792458) ∧
    (∀ rb e, source (times.map fun t => t - t0) (m.named.map fun k => (k, val k)) = .ok rb →
      (∀ w ∈ waves, rb.minwave ≤ w ∧ w ≤ rb.maxwave) → rb.flux (times.map fun t => t - t0) waves = .error e →
      evaluate m limit [] [] times waves st r = .error e) ∧
    (∀ e, source (times.map fun t => t - t0) (m.named.map fun k => (k, val k)) = .error e →
      evaluate m limit [] [] times waves st r = .error e) := by
  have hz : m.applyRedshift = false ∧ m.node = node ∧ m.source = source := by
    unfold init at hm
    split at hm
    · cases hm
    · split at hm
      · cases hm
      · split at hm
        · cases hm
        · cases hm
          exact ⟨rfl, rfl, rfl⟩
  obtain ⟨hz, rfl, rfl⟩ := hz
  obtain ⟨n, rfl⟩ : ∃ n, limit = n + 1 := ⟨limit - 1, by omega⟩
  have hin : ∀ rb : Result, (∀ w ∈ waves, rb.minwave ≤ w ∧ w ≤ rb.maxwave) → outside rb waves = false := by
    intro rb h
    unfold outside
    rw [List.any_eq_false]
    intro w hw
    simp [(h w hw).1, (h w hw).2]
  rw [evaluate_eq m hz _ _ _ _ _ p hp hne h0, compute_args m n st p val t0 times waves hp (startTime_ok ht) hv]
  refine ⟨fun rb flux hs hw hf => ?_, fun rb e hs hw hf => ?_, fun e hs => ?_⟩
  · rw [hs]
    dsimp only
    rw [hin rb hw, if_neg (by simp), hf]
    dsimp only
    obtain ⟨a, ha, h1, h2, h3⟩ := SnProps.toFnu_ok times.length flux waves
    rw [ha]
    exact ⟨a, rfl, h1, h2, h3⟩
  · rw [hs]
    dsimp only
    rw [hin rb hw, if_neg (by simp), hf]
    rfl
  · rw [hs]
    rfl

/-- **C103, where the code falls short.** A wavelength outside the range of the redback source is not extrapolated: `compute_sed` and
`compute_sed_with_extrapolation` call each other with the same arguments until Python's recursion limit, whatever it is, is reached
(the model's own range is 0 to infinity, so nothing is ever trimmed). -/
theorem C103_outside_counterexample {base : Dict Name V → Except Err (Dict Name V)} {attrs : List Name} {node : Name} {source : Source}
    {extrap : Option (ℝ → List ℝ → List ℝ → Mat ℝ)} {priors : List (Name × V)} {parameters kwargs : Dict Name V} {m : Obj V}
    (hm : init base attrs node source extrap priors parameters kwargs = .ok m)
    (st : SState ℝ) (p : Params ℝ) (val : Name → PVal ℝ) (t0 : ℝ) (times waves : List ℝ) (r : R)
    (hp : st.get? node = some p) (ht : startTime p t0) (hv : ∀ k ∈ m.named, p.get? k = some (val k))
    (h0 : ∀ w ∈ waves, 0 ≤ w) (rb : Result)
    (hs : source (times.map fun t => t - t0) (m.named.map fun k => (k, val k)) = .ok rb)
    (hout : ∃ w ∈ waves, w < rb.minwave ∨ rb.maxwave < w) (limit : Nat) :
    evaluate m limit [] [] times waves st r = .error .recursion := by
  have hz : m.applyRedshift = false ∧ m.node = node ∧ m.source = source := by
    unfold init at hm
    split at hm
    · cases hm
    · split at hm
      · cases hm
      · split at hm
        · cases hm
        · cases hm
          exact ⟨rfl, rfl, rfl⟩
  obtain ⟨hz, rfl, rfl⟩ := hz
  obtain ⟨w, hw, hwo⟩ := hout
  have hne : waves ≠ [] := List.ne_nil_of_mem hw
  have ho : outside rb waves = true := by
    unfold outside
    rw [List.any_eq_true]
    exact ⟨w, hw, by simpa using hwo⟩
  have key : ∀ n, compute m n st times waves = .error .recursion := by
    intro n
    induction n with
    | zero => rfl
    | succ n ih =>
      rw [compute_args m n st p val t0 times waves hp (startTime_ok ht) hv, hs]
      dsimp only
      rw [ho, if_pos rfl, sed_direct _ _ _ _ _ _ _ hne h0, ih]
  rw [evaluate_eq m hz _ _ _ _ _ p hp hne h0, key]
  rfl

/-! ## The hypotheses can be met -/

/-- A source that needs `height` and is defined from 1000 to 5000 angstroms. -/
def toy : Source := fun _ args => match args.get? "height".toList with
  | some (.num h) => .ok { minwave := 1000, maxwave := 5000, flux := fun ts ws => .ok (ts.map fun _ => ws.map fun _ => h) }
  | _ => .error .typeError

/-- A base class whose parameters are `redshift` and `t0`. -/
def toyBase (kwargs : Dict Name Nat) : Except Err (Dict Name Nat) :=
  .ok [("redshift".toList, (kwargs.get? "redshift".toList).getD 0), ("t0".toList, (kwargs.get? "t0".toList).getD 0)]

/-- The height from the dictionary (setter 7), the redshift from the priors (setter 8; the keyword argument, 9, is lost). -/
def toyModel : Obj Nat :=
  { node := "rb".toList
    setters := [("redshift".toList, 8), ("t0".toList, 0), ("height".toList, 7)]
    named := ["height".toList, "redshift".toList]
    source := toy
    extrap := none
    applyRedshift := false }

theorem toy_init : init toyBase [] "rb".toList toy none [("redshift".toList, 8)] [("height".toList, 7)]
    [("redshift".toList, 9)] = .ok toyModel := rfl

/-- A state of it. -/
def toyState : SState ℝ :=
  [("rb".toList, [("redshift".toList, .num 1), ("t0".toList, .num 5), ("height".toList, .num 3)])]

example : ∃ a, evaluate (R := Unit) toyModel 1 [] [] [10, 20] [2000] toyState () = .ok (a, ()) ∧
    (a.getD 1 []).getD 0 0 / 10 ^ 35 = 3 * 10 ^ 7 * (2000 / 10 ^ 10) ^ 2 / 299792458 := by
  obtain ⟨h, _, _⟩ := C103_value_partial (R := Unit) toy_init 1 (by norm_num) toyState
    [("redshift".toList, .num 1), ("t0".toList, .num 5), ("height".toList, .num 3)]
    (fun k => if k = "height".toList then .num 3 else .num 1) 5 [10, 20] [2000] () rfl (.inl rfl)
    (by intro k hk; simp only [toyModel, List.mem_cons, List.not_mem_nil, or_false] at hk; rcases hk with rfl | rfl <;> rfl)
    (by simp) (by simp)
  obtain ⟨a, h1, _, _, h2⟩ := h { minwave := 1000, maxwave := 5000, flux := fun ts ws => .ok (ts.map fun _ => ws.map fun _ => 3) } [[3], [3]]
    rfl (by norm_num) rfl
  exact ⟨a, h1, h2 1 0 2000 (by simp) rfl⟩

example (limit : Nat) : evaluate (R := Unit) toyModel limit [] [] [10, 20] [2000, 6000] toyState () = .error .recursion :=
  C103_outside_counterexample (R := Unit) toy_init toyState
    [("redshift".toList, .num 1), ("t0".toList, .num 5), ("height".toList, .num 3)]
    (fun k => if k = "height".toList then .num 3 else .num 1) 5 [10, 20] [2000, 6000] () rfl (.inl rfl)
    (by intro k hk; simp only [toyModel, List.mem_cons, List.not_mem_nil, or_false] at hk; rcases hk with rfl | rfl <;> rfl)
    (by simp) { minwave := 1000, maxwave := 5000, flux := fun ts ws => .ok (ts.map fun _ => ws.map fun _ => 3) }
    rfl ⟨6000, by simp, .inr (by norm_num)⟩ limit

end LCL.RedbackProps
