import Verif.Model.TemplateShare
import Verif.Props.Template

/-!
# Property C131: light curves and the caller's baselines
-/

namespace LCL.TemplateShareProps
open LCL LCL.TemplateShare LCL.TemplateProps LCL.TemplateSpec

/-! ## Specification -/

/-- The `i`-th light curve has the attributes `d`. -/
def Shows (W : World) (i : Nat) (d : LcData) : Prop := ∃ c, W.curves[i]? = some c ∧ TemplateShare.seen W.dicts c = d

/-- The operation changes the dictionary `r`: it is written to, or given to a light curve in magnitudes. -/
def Touches (r : Nat) : Op → Prop
  | .dict _ => False
  | .write r' _ _ => r' = r
  | .build _ _ _ mags b => mags = true ∧ b = some r

/-- The `i`-th light curve was given the dictionary `r`. -/
def Uses (W : World) (i r : Nat) : Prop := ∃ c, W.curves[i]? = some c ∧ c.base = .shared r

/-! ## Proofs -/

theorem init_baseline {source : LcSource} {t0 : ℝ} {periodic mags : Bool} {b : Dict Name ℝ} {c : LcData}
    (h : lcInit source t0 periodic mags (some b) = .ok c) : c.baseline = lcConvert mags b := by
  have fin : ∀ {curves t p}, lcFinish curves t p mags (some b) = .ok c → c.baseline = lcConvert mags b := by
    intro curves t p h
    unfold lcFinish at h
    split at h
    · cases h
    · split at h
      · cases h
      · split at h
        · cases h
        · rename_i b' hb
          cases h
          unfold lcBaseline at hb
          dsimp only at hb
          split at hb
          · cases hb; rfl
          · cases hb
  unfold lcInit at h
  split at h
  · cases h
  · split at h
    · cases h
    · split at h
      · split at h
        · cases h
        · exact fin h
      · exact fin h

theorem get_lt {α : Type} {l : List α} {i : Nat} {a : α} (h : l[i]? = some a) : i < l.length := by
  rcases Nat.lt_or_ge i l.length with h' | h'
  · exact h'
  · rw [List.getElem?_eq_none h'] at h; cases h

/-- **C131** (construction). Whatever happened before, a light curve built from a dictionary of
baselines has the attributes `LightcurveData` gives for the dictionary as it is now, or raises its
exception and changes nothing; the same without a dictionary. -/
theorem C131_build (W : World) (source : LcSource) (t0 : ℝ) (periodic mags : Bool) :
    (∀ (r : Nat) b, W.dicts[r]? = some b →
      (∀ d, lcInit source t0 periodic mags (some b) = .ok d →
        (step W (.build source t0 periodic mags (some r))).2 = none ∧
        Shows (step W (.build source t0 periodic mags (some r))).1 W.curves.length d ∧
        Uses (step W (.build source t0 periodic mags (some r))).1 W.curves.length r) ∧
      (∀ e, lcInit source t0 periodic mags (some b) = .error e → step W (.build source t0 periodic mags (some r)) = (W, some e))) ∧
    (∀ d, lcInit source t0 periodic mags none = .ok d →
        (step W (.build source t0 periodic mags none)).2 = none ∧
        Shows (step W (.build source t0 periodic mags none)).1 W.curves.length d) ∧
    (∀ e, lcInit source t0 periodic mags none = .error e → step W (.build source t0 periodic mags none) = (W, some e)) := by
  refine ⟨?_, ?_, ?_⟩
  · intro r b hr
    constructor
    · intro d hd
      have hs : step W (.build source t0 periodic mags (some r)) =
          (⟨W.dicts.set r (lcCallerBaseline mags b), W.curves ++ [⟨d, .shared r⟩]⟩, none) := by
        simp only [step, hr, hd]
      rw [hs]
      refine ⟨rfl, ⟨⟨d, .shared r⟩, by simp, ?_⟩, ⟨⟨d, .shared r⟩, by simp, rfl⟩⟩
      unfold TemplateShare.seen baseOf
      dsimp only
      rw [List.getElem?_set_self (get_lt hr)]
      show (⟨d.curves, d.t0, d.period, d.minTimes, d.maxTimes, lcConvert mags b⟩ : LcData) = d
      rw [← init_baseline hd]
    · intro e he
      simp only [step, hr, he]
  · intro d hd
    have hs : step W (.build source t0 periodic mags none) = (⟨W.dicts, W.curves ++ [⟨d, .own d.baseline⟩]⟩, none) := by
      simp only [step, hd]
    rw [hs]
    exact ⟨rfl, ⟨⟨d, .own d.baseline⟩, by simp, rfl⟩⟩
  · intro e he
    simp only [step, he]

/-- One step leaves the existing light curves, and the dictionaries it does not touch. -/
theorem step_frame (W : World) (op : Op) :
    (∀ (i : Nat) c, W.curves[i]? = some c → (step W op).1.curves[i]? = some c) ∧
    (∀ (r : Nat) d, W.dicts[r]? = some d → ¬ Touches r op → (step W op).1.dicts[r]? = some d) := by
  have happ : ∀ (i : Nat) c x, W.curves[i]? = some c → (W.curves ++ [x])[i]? = some c := by
    intro i c x h
    rw [List.getElem?_append_left (get_lt h)]; exact h
  cases op with
  | dict d =>
    refine ⟨fun i c h => h, fun r d' h _ => ?_⟩
    show (W.dicts ++ [d])[r]? = some d'
    rw [List.getElem?_append_left (get_lt h)]; exact h
  | write r f x =>
    cases hr : W.dicts[r]? with
    | none => simp only [step, hr]; exact ⟨fun i c h => h, fun r d h _ => h⟩
    | some d =>
      simp only [step, hr]
      refine ⟨fun i c h => h, fun r' d' h ht => ?_⟩
      rw [List.getElem?_set_ne (fun e => ht e)]; exact h
  | build source t0 periodic mags base =>
    cases base with
    | none =>
      cases hi : lcInit source t0 periodic mags none with
      | error e => simp only [step, hi]; exact ⟨fun i c h => h, fun r d h _ => h⟩
      | ok c =>
        simp only [step, hi]
        exact ⟨fun i c' h => happ i c' _ h, fun r d h _ => h⟩
    | some r =>
      cases hr : W.dicts[r]? with
      | none => simp only [step, hr]; exact ⟨fun i c h => h, fun r d h _ => h⟩
      | some b =>
        cases hi : lcInit source t0 periodic mags (some b) with
        | error e => simp only [step, hr, hi]; exact ⟨fun i c h => h, fun r d h _ => h⟩
        | ok c =>
          simp only [step, hr, hi]
          refine ⟨fun i c' h => happ i c' _ h, fun r' d h ht => ?_⟩
          by_cases hrr : r = r'
          · subst hrr
            have hm : mags = false := by
              cases mags with
              | false => rfl
              | true => exact absurd ⟨rfl, rfl⟩ ht
            subst hm
            rw [List.getElem?_set_self (get_lt hr)]
            rw [hr] at h
            cases h
            rfl
          · rw [List.getElem?_set_ne hrr]; exact h

theorem history (W : World) (i : Nat) (d : LcData) (h : Shows W i d) (ops : List Op)
    (hr : ∀ r, Uses W i r → r < W.dicts.length ∧ ∀ op ∈ ops, ¬ Touches r op) : Shows (run W ops) i d := by
  obtain ⟨c, hc, rfl⟩ := h
  have key : ∀ (ops : List Op) (W : World), W.curves[i]? = some c →
      (∀ r, c.base = .shared r → ∃ b, W.dicts[r]? = some b ∧ ∀ op ∈ ops, ¬ Touches r op) →
      (run W ops).curves[i]? = some c ∧ ∀ r, c.base = .shared r → (run W ops).dicts[r]? = W.dicts[r]? := by
    intro ops
    induction ops with
    | nil => intro W h _; exact ⟨h, fun _ _ => rfl⟩
    | cons op ops ih =>
      intro W h hb
      obtain ⟨f1, f2⟩ := step_frame W op
      obtain ⟨g1, g2⟩ := ih (step W op).1 (f1 i c h) (by
        intro r hr
        obtain ⟨b, hb1, hb2⟩ := hb r hr
        exact ⟨b, f2 r b hb1 (hb2 op (by simp)), fun o ho => hb2 o (List.mem_cons_of_mem _ ho)⟩)
      refine ⟨g1, fun r hr => ?_⟩
      obtain ⟨b, hb1, hb2⟩ := hb r hr
      show (run (step W op).1 ops).dicts[r]? = _
      rw [g2 r hr, f2 r b hb1 (hb2 op (by simp)), hb1]
  obtain ⟨k1, k2⟩ := key ops W hc (by
    intro r hbase
    obtain ⟨h1, h2⟩ := hr r ⟨c, hc, hbase⟩
    exact ⟨W.dicts[r], List.getElem?_eq_getElem h1, h2⟩)
  have hseen : TemplateShare.seen (run W ops).dicts c = TemplateShare.seen W.dicts c := by
    unfold TemplateShare.seen
    have : baseOf (run W ops).dicts c.base = baseOf W.dicts c.base := by
      cases hb : c.base with
      | own d => rfl
      | shared r => simp only [baseOf, k2 r hb]
    rw [this]
  exact ⟨c, k1, hseen⟩

/-- No operation removes a dictionary. -/
theorem step_length (W : World) (op : Op) : W.dicts.length ≤ (step W op).1.dicts.length := by
  cases op with
  | dict d => simp [step]
  | write r f x => cases hr : W.dicts[r]? <;> simp [step, hr]
  | build source t0 periodic mags base =>
    cases base with
    | none => cases hi : lcInit source t0 periodic mags none <;> simp [step, hi]
    | some r =>
      cases hr : W.dicts[r]? with
      | none => simp [step, hr]
      | some b => cases hi : lcInit source t0 periodic mags (some b) <;> simp [step, hr, hi]

/-- Every dictionary a light curve was given exists. -/
theorem run_valid (ops : List Op) : ∀ W : World, (∀ i r, Uses W i r → r < W.dicts.length) →
    ∀ i r, Uses (run W ops) i r → r < (run W ops).dicts.length := by
  induction ops with
  | nil => intro W h; exact h
  | cons op ops ih =>
    intro W h
    refine ih _ ?_
    rintro i r ⟨c, hc, hb⟩
    have old : W.curves[i]? = some c → r < (step W op).1.dicts.length := fun h' =>
      lt_of_lt_of_le (h i r ⟨c, h', hb⟩) (step_length W op)
    cases op with
    | dict d => exact old hc
    | write r' f x =>
      cases hr : W.dicts[r']? with
      | none => simp only [step, hr] at hc; exact old hc
      | some d => simp only [step, hr] at hc; exact old hc
    | build source t0 periodic mags base =>
      cases base with
      | none =>
        cases hi : lcInit source t0 periodic mags none with
        | error e => simp only [step, hi] at hc; exact old hc
        | ok d =>
          simp only [step, hi] at hc
          rcases Nat.lt_or_ge i W.curves.length with hl | hl
          · rw [List.getElem?_append_left hl] at hc; exact old hc
          · rw [List.getElem?_append_right hl] at hc
            have := List.mem_of_getElem? hc
            simp only [List.mem_singleton] at this
            subst this
            cases hb
      | some r' =>
        cases hr : W.dicts[r']? with
        | none => simp only [step, hr] at hc; exact old hc
        | some b =>
          cases hi : lcInit source t0 periodic mags (some b) with
          | error e => simp only [step, hr, hi] at hc; exact old hc
          | ok d =>
            simp only [step, hr, hi] at hc
            rcases Nat.lt_or_ge i W.curves.length with hl | hl
            · rw [List.getElem?_append_left hl] at hc; exact old hc
            · rw [List.getElem?_append_right hl] at hc
              have := List.mem_of_getElem? hc
              simp only [List.mem_singleton] at this
              subst this
              cases hb
              exact lt_of_lt_of_le (get_lt hr) (step_length W _)

/-- **C131** (history). The attributes of a light curve, and so all its fluxes, stay as they are through
any further operations, raising ones included, as long as the dictionary of baselines it was given, if
any, is neither written to nor given to another light curve in magnitudes. In particular nothing at
all changes a light curve built without a dictionary. Missing: those two cases, see
`C131_shared_counterexample`. -/
theorem C131_history_partial (before after : List Op) (i : Nat) (d : LcData) (h : Shows (run ⟨[], []⟩ before) i d)
    (hr : ∀ r, Uses (run ⟨[], []⟩ before) i r → ∀ op ∈ after, ¬ Touches r op) : Shows (run (run ⟨[], []⟩ before) after) i d :=
  history _ i d h after fun r hu => ⟨run_valid before ⟨[], []⟩ (by rintro i r ⟨c, hc, _⟩; simp at hc) i r hu, hr r hu⟩

/-! ## The counterexample -/

/-- Two points of magnitude 20 in `g`, in magnitudes, with the dictionary 0. -/
noncomputable def buildMag : Op := .build (.dict [(gName, two 0 20 1 20)]) 0 false true (some 0)

noncomputable def magData (b : ℝ) : LcData :=
  ⟨[(gName, [(0 - 0, conv true 20), (1 - 0, conv true 20)])], 0, none, [(gName, 0 - 0)], [(gName, 1 - 0)], [(gName, mag2flux b)]⟩

theorem init_mag (b : ℝ) : lcInit (.dict [(gName, two 0 20 1 20)]) 0 false true (some [(gName, b)]) = .ok (magData b) := by
  have hs : lcShiftAll 0 true [(gName, two 0 20 1 20)] = .ok [(gName, [((0 : ℝ) - 0, conv true 20), (1 - 0, conv true 20)])] := by
    unfold lcShiftAll
    rw [two_shift (by norm_num)]
    rfl
  have hb : lcBaseline [(gName, [((0 : ℝ) - 0, conv true 20), (1 - 0, conv true 20)])] (some [(gName, b)]) = .ok [(gName, b)] := by
    unfold lcBaseline
    dsimp only
    rw [if_pos]
    intro f hf
    have : f = gName := by simpa [Dict.keys] using hf
    subst this
    rw [Dict.has_iff]
    simp [Dict.keys]
  unfold lcInit
  have : lcSplit (.dict [(gName, two 0 20 1 20)]) = .ok [(gName, two 0 20 1 20)] := rfl
  rw [this]
  dsimp only
  rw [hs]
  dsimp only
  rw [if_neg (by simp)]
  unfold lcFinish
  simp only [lcEnds, List.head?_cons, List.getLast?_cons_cons, List.getLast?_singleton, hb]
  rfl

/-- The flux outside of the rows is the baseline. -/
theorem eval_mag (D : LcData) (b x : ℝ) (h : D = ⟨(magData b).curves, 0, none, (magData b).minTimes, (magData b).maxTimes, [(gName, x)]⟩) : lcEval D [2] gName = .ok [x] := by
  subst h
  unfold lcEval magData
  have h1 : Dict.get? [(gName, [((0 : ℝ) - 0, conv true 20), (1 - 0, conv true 20)])] gName = some [((0 : ℝ) - 0, conv true 20), (1 - 0, conv true 20)] := by
    rw [Dict.get?_cons, if_pos rfl]
  have h2 : Dict.get? [(gName, (0 : ℝ) - 0)] gName = some (0 - 0) := by rw [Dict.get?_cons, if_pos rfl]
  have h3 : Dict.get? [(gName, (1 : ℝ) - 0)] gName = some (1 - 0) := by rw [Dict.get?_cons, if_pos rfl]
  have h4 : Dict.get? [(gName, x)] gName = some x := by rw [Dict.get?_cons, if_pos rfl]
  dsimp only
  rw [h1, h2, h3, h4]
  simp only [List.map_cons, List.map_nil, lcWrap, Option.getD_some]
  unfold lcValue
  rw [if_neg (by rintro ⟨_, h⟩; norm_num at h)]

theorem step_mag (b : ℝ) (cs : List Curve) :
    step ⟨[[(gName, b)]], cs⟩ buildMag = (⟨[[(gName, mag2flux b)]], cs ++ [⟨magData b, .shared 0⟩]⟩, none) := by
  have hr : (⟨[[(gName, b)]], cs⟩ : World).dicts[0]? = some [(gName, b)] := rfl
  unfold buildMag
  simp only [step, hr, init_mag]
  rfl

/-- **C131** is false for a dictionary given to two light curves in magnitudes: the caller's baseline of
magnitude `m` is replaced by its flux when the first is built; building the second, from the same
dictionary, converts it again, and from then on both have the flux of the flux of `m` as their
baseline. For `m = 31.4` the first gives 1 nJy before and `10^12.16` nJy after. -/
theorem C131_shared_counterexample (m : ℝ) :
    Shows (run ⟨[], []⟩ [.dict [(gName, m)], buildMag]) 0 (magData m) ∧
    lcEval (magData m) [2] gName = .ok [mag2flux m] ∧
    (run ⟨[], []⟩ [.dict [(gName, m)], buildMag]).dicts = [[(gName, mag2flux m)]] ∧
    (∃ d, Shows (run ⟨[], []⟩ [.dict [(gName, m)], buildMag, buildMag]) 0 d ∧ lcEval d [2] gName = .ok [mag2flux (mag2flux m)]) ∧
    (∃ d, Shows (run ⟨[], []⟩ [.dict [(gName, m)], buildMag, buildMag]) 1 d ∧ lcEval d [2] gName = .ok [mag2flux (mag2flux m)]) ∧
    (mag2flux 31.4 = 1 ∧ mag2flux (mag2flux 31.4) = 10 ^ (12.16 : ℝ)) := by
  have h0 : (step ⟨[], []⟩ (.dict [(gName, m)])).1 = ⟨[[(gName, m)]], []⟩ := rfl
  have h1 : run ⟨[], []⟩ [.dict [(gName, m)], buildMag] = ⟨[[(gName, mag2flux m)]], [⟨magData m, .shared 0⟩]⟩ := by
    simp only [run, h0, step_mag]
    rfl
  have h2 : run ⟨[], []⟩ [.dict [(gName, m)], buildMag, buildMag] =
      ⟨[[(gName, mag2flux (mag2flux m))]], [⟨magData m, .shared 0⟩, ⟨magData (mag2flux m), .shared 0⟩]⟩ := by
    simp only [run, h0, step_mag]
    rfl
  have hz : mag2flux 31.4 = 1 := by
    unfold mag2flux magAbZp
    norm_num
  refine ⟨?_, eval_mag _ m _ rfl, by rw [h1], ?_, ?_, hz, ?_⟩
  · rw [h1]; exact ⟨_, rfl, rfl⟩
  · rw [h2]; exact ⟨_, ⟨_, rfl, rfl⟩, eval_mag _ m _ rfl⟩
  · rw [h2]; exact ⟨_, ⟨_, rfl, rfl⟩, eval_mag _ (mag2flux m) _ rfl⟩
  · rw [hz]
    unfold mag2flux magAbZp
    norm_num

/-- A concrete case of `C131_history_partial`: two dictionaries, a light curve from the first, then a
light curve from the second and a write to it: the first light curve is as it was. -/
example : Shows (run ⟨[], []⟩ [.dict [(gName, 20)], buildMag, .dict [(gName, 21)]]) 0 (magData 20) ∧
    Shows (run (run ⟨[], []⟩ [.dict [(gName, 20)], buildMag, .dict [(gName, 21)]])
      [.build (.dict [(gName, two 0 20 1 20)]) 0 false true (some 1), .write 1 gName 3]) 0 (magData 20) := by
  have h0 : (step ⟨[], []⟩ (.dict [(gName, 20)])).1 = ⟨[[(gName, 20)]], []⟩ := rfl
  have hW : run ⟨[], []⟩ [.dict [(gName, 20)], buildMag, .dict [(gName, 21)]] =
      ⟨[[(gName, mag2flux 20)], [(gName, 21)]], [⟨magData 20, .shared 0⟩]⟩ := by
    simp only [run, h0, step_mag]
    rfl
  have hs : Shows (run ⟨[], []⟩ [.dict [(gName, 20)], buildMag, .dict [(gName, 21)]]) 0 (magData 20) := by
    rw [hW]; exact ⟨_, rfl, rfl⟩
  refine ⟨hs, C131_history_partial _ _ 0 (magData 20) hs ?_⟩
  rintro r ⟨c, hc, hb⟩
  rw [hW] at hc
  simp only [List.getElem?_cons_zero, Option.some.injEq] at hc
  subst hc
  cases hb
  intro op hop
  simp only [List.mem_cons, List.not_mem_nil, or_false] at hop
  rcases hop with rfl | rfl
  · rintro ⟨_, h⟩; cases h
  · intro h; cases h

end LCL.TemplateShareProps
