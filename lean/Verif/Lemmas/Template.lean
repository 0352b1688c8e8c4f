import Verif.Spec.Template
import Verif.Props.Bandfluxes
import Mathlib.Tactic.Linarith
import Mathlib.Tactic.FieldSimp
import Mathlib.Tactic.Ring

namespace LCL.TemplateLemmas
open LCL LCL.TemplateSpec

/-- Strictly increasing times. -/
def Inc (rows : List (ℝ × ℝ)) : Prop := rows.Pairwise fun a b => a.1 < b.1

theorem inc_of_diff (rows : List (ℝ × ℝ)) (h : ∀ d ∈ npDiff (rows.map (·.1)), 0 < d) : Inc rows := by
  have key : ∀ (rows : List (ℝ × ℝ)), (∀ d ∈ npDiff (rows.map (·.1)), 0 < d) → ∀ a, (∀ p, rows.head? = some p → a < p.1) →
      Inc rows ∧ ∀ p ∈ rows, a < p.1 := by
    intro rows
    induction rows with
    | nil => intro _ a _; exact ⟨List.Pairwise.nil, by simp⟩
    | cons p rows ih =>
      intro hd a ha
      have ha0 : a < p.1 := ha p rfl
      have h2 : Inc rows ∧ ∀ q ∈ rows, p.1 < q.1 := by
        cases rows with
        | nil => exact ⟨List.Pairwise.nil, by simp⟩
        | cons q rest =>
          simp only [List.map_cons, npDiff, List.mem_cons, forall_eq_or_imp] at hd
          refine ih (by simpa using hd.2) p.1 ?_
          intro x hx
          simp only [List.head?_cons, Option.some.injEq] at hx
          subst hx
          linarith [hd.1]
      refine ⟨List.pairwise_cons.2 ⟨fun q hq => h2.2 q hq, h2.1⟩, ?_⟩
      intro q hq
      rcases List.mem_cons.1 hq with e | e
      · rw [e]; exact ha0
      · exact lt_trans ha0 (h2.2 q e)
  cases rows with
  | nil => exact List.Pairwise.nil
  | cons p rows =>
    refine (key (p :: rows) h (p.1 - 1) ?_).1
    intro x hx
    simp only [List.head?_cons, Option.some.injEq] at hx
    subst hx
    linarith

theorem diff_of_inc (rows : List (ℝ × ℝ)) (h : Inc rows) : ∀ d ∈ npDiff (rows.map (·.1)), 0 < d := by
  induction rows with
  | nil => simp [npDiff]
  | cons p rows ih =>
    cases rows with
    | nil => simp [npDiff]
    | cons q rest =>
      have h' := List.pairwise_cons.1 h
      simp only [List.map_cons, npDiff, List.mem_cons, forall_eq_or_imp]
      refine ⟨by linarith [h'.1 q List.mem_cons_self], ?_⟩
      simpa using ih h'.2

/-- The interpolant of the rows. -/
noncomputable def rowInterp (rows : List (ℝ × ℝ)) (u : ℝ) : ℝ := interpAt (rows.map (·.1)) (rows.map (·.2)) u

theorem rowInterp_segment {rows : List (ℝ × ℝ)} (hs : Inc rows) {i : Nat} {p q : ℝ × ℝ} {u : ℝ} (hp : rows[i]? = some p) (hq : rows[i + 1]? = some q)
    (h1 : p.1 ≤ u) (h2 : u ≤ q.1) : rowInterp rows u = p.2 + (q.2 - p.2) * ((u - p.1) / (q.1 - p.1)) := by
  induction rows generalizing i with
  | nil => simp at hp
  | cons a rows ih =>
    have hs' := List.pairwise_cons.1 hs
    cases rows with
    | nil => simp at hq
    | cons b rest =>
      cases i with
      | zero =>
        simp only [List.getElem?_cons_zero, Option.some.injEq, List.getElem?_cons_succ, zero_add] at hp hq
        subst hp; subst hq
        have hlt : a.1 < b.1 := hs'.1 b List.mem_cons_self
        unfold rowInterp
        simp only [List.map_cons]
        unfold interpAt
        by_cases hu : u < b.1
        · rw [if_pos hu]
          have : b.1 - a.1 ≠ 0 := by linarith
          field_simp
        · rw [if_neg hu]
          have e : u = b.1 := le_antisymm h2 (not_lt.1 hu)
          rw [e]
          have hk := interpAt_knot (b.1 :: rest.map (·.1)) (b.2 :: rest.map (·.2)) 0 b.1 b.2 (by simp) (by
            have := List.Pairwise.map (fun r : ℝ × ℝ => r.1) (fun _ _ h => h) hs'.2
            simpa using this) rfl rfl
          rw [hk]
          have : b.1 - a.1 ≠ 0 := by linarith
          field_simp
          ring
      | succ i =>
        simp only [List.getElem?_cons_succ] at hp hq
        have hb : b.1 ≤ p.1 := by
          cases i with
          | zero => simp only [List.getElem?_cons_zero, Option.some.injEq] at hp; subst hp; exact le_refl _
          | succ i =>
            simp only [List.getElem?_cons_succ] at hp
            exact ((List.pairwise_cons.1 hs'.2).1 p (List.mem_of_getElem? hp)).le
        have := ih hs'.2 (i := i) (by simpa using hp) (by simpa using hq)
        rw [← this]
        unfold rowInterp
        simp only [List.map_cons]
        rw [interpAt]
        rw [if_neg (not_lt.2 (le_trans hb h1))]

theorem exists_segment {rows : List (ℝ × ℝ)} {u : ℝ} {a b : ℝ × ℝ} (ha : rows.head? = some a) (hb : rows.getLast? = some b)
    (h1 : a.1 ≤ u) (h2 : u ≤ b.1) :
    (∃ (i : Nat) (p q : ℝ × ℝ), rows[i]? = some p ∧ rows[i + 1]? = some q ∧ p.1 ≤ u ∧ u ≤ q.1) ∨ rows = [a] := by
  induction rows generalizing a with
  | nil => simp at ha
  | cons c rows ih =>
    simp only [List.head?_cons, Option.some.injEq] at ha
    subst ha
    cases rows with
    | nil => exact Or.inr rfl
    | cons d rest =>
      left
      by_cases hd : u ≤ d.1
      · exact ⟨0, c, d, rfl, rfl, h1, hd⟩
      · push Not at hd
        rw [List.getLast?_cons_cons] at hb
        rcases ih (a := d) rfl hb hd.le with ⟨i, p, q, hp, hq, h3, h4⟩ | e
        · exact ⟨i + 1, p, q, by simpa using hp, by simpa using hq, h3, h4⟩
        · rw [e] at hb
          simp only [List.getLast?_singleton, Option.some.injEq] at hb
          subst hb
          exact absurd h2 (not_le.2 hd)

/-- Rows moved by `s` and converted. -/
def moved (s : ℝ) (c : ℝ → ℝ) (rows : List (ℝ × ℝ)) : List (ℝ × ℝ) := rows.map fun r => (r.1 - s, c r.2)

theorem moved_inc {s : ℝ} {c : ℝ → ℝ} {rows : List (ℝ × ℝ)} (h : Inc rows) : Inc (moved s c rows) := by
  unfold Inc moved
  refine List.Pairwise.map _ ?_ h
  intro a b hab
  dsimp only
  linarith

/-- The value the code computes from moved rows is the flux of the given rows at the moved time. -/
theorem lcValue_spec {rows : List (ℝ × ℝ)} (hs : Inc rows) (s : ℝ) (c : ℝ → ℝ) {a b : ℝ × ℝ} (ha : rows.head? = some a) (hb : rows.getLast? = some b)
    (base t : ℝ) : FluxAt rows c base (t + s) (lcValue (moved s c rows) (a.1 - s) (b.1 - s) base t) := by
  unfold FluxAt lcValue
  have hne : rows ≠ [] := by rintro rfl; simp at ha
  have hout : Outside rows (t + s) ↔ ¬ (a.1 - s ≤ t ∧ t ≤ b.1 - s) := by
    unfold Outside
    rw [ha, hb]
    constructor
    · rintro (⟨p, hp, h⟩ | ⟨p, hp, h⟩)
      · injection hp with hp; subst hp; rintro ⟨h1, h2⟩; linarith
      · injection hp with hp; subst hp; rintro ⟨h1, h2⟩; linarith
    · intro h
      rw [not_and_or] at h
      rcases h with h | h
      · exact Or.inl ⟨a, rfl, by push Not at h; linarith⟩
      · exact Or.inr ⟨b, rfl, by push Not at h; linarith⟩
  rw [hout]
  constructor
  · intro h; rw [if_neg h]
  · intro h
    rw [not_not] at h
    rw [if_pos h]
    have hma : ((moved s c rows).map (·.1)).head? = some (a.1 - s) := by simp [moved, List.map_map, ha]
    have hmb : ((moved s c rows).map (·.1)).getLast? = some (b.1 - s) := by simp [moved, List.map_map, hb]
    unfold npInterp
    rw [hma, hmb]
    dsimp only
    rw [if_neg (not_lt.2 h.1), if_neg (not_lt.2 h.2)]
    rcases exists_segment ha hb (by linarith : a.1 ≤ t + s) (by linarith : t + s ≤ b.1) with ⟨i, p, q, hp, hq, h3, h4⟩ | e
    · left
      refine ⟨i, p, q, hp, hq, h3, h4, ?_⟩
      have := rowInterp_segment (moved_inc (s := s) (c := c) hs) (i := i) (p := (p.1 - s, c p.2)) (q := (q.1 - s, c q.2)) (u := t)
        (by simp [moved, hp]) (by simp [moved, hq]) (by dsimp only; linarith) (by dsimp only; linarith)
      unfold rowInterp at this
      rw [this]
      dsimp only
      congr 2
      have e1 : t - (p.1 - s) = t + s - p.1 := by ring
      have e2 : q.1 - s - (p.1 - s) = q.1 - p.1 := by ring
      rw [e1, e2]
    · right
      have : a = b := by rw [e] at hb; simpa using hb
      subst this
      refine ⟨a, e, le_antisymm (by linarith) (by linarith), ?_⟩
      rw [e]
      simp [moved, interpAt]

theorem get?_map_pair {ν μ : Type} (g : ν → μ) (d : Dict Name ν) (k : Name) : Dict.get? (d.map fun p => (p.1, g p.2)) k = (d.get? k).map g := by
  induction d with
  | nil => rfl
  | cons p d ih =>
    obtain ⟨k', v⟩ := p
    rw [List.map_cons, Dict.get?_cons, Dict.get?_cons]
    by_cases h : k' = k
    · simp [h]
    · simp [h, ih]

theorem shiftRow_conv (t0 : ℝ) (mags : Bool) (rows : List (ℝ × ℝ)) : rows.map (lcShiftRow t0 mags) = moved t0 (conv mags) rows := rfl

theorem shiftAll_spec {t0 : ℝ} {mags : Bool} {d : Dict Name LcInput} {curves : Dict Name (List (ℝ × ℝ))} (h : lcShiftAll t0 mags d = .ok curves) :
    curves = d.map (fun p => (p.1, moved t0 (conv mags) p.2.rows)) ∧
    ∀ p ∈ d, (p.2.cols = 2 ∨ p.2.cols = 3) ∧ Inc p.2.rows := by
  induction d generalizing curves with
  | nil => unfold lcShiftAll at h; injection h with h; subst h; exact ⟨rfl, by simp⟩
  | cons p d ih =>
    obtain ⟨f, lc⟩ := p
    unfold lcShiftAll at h
    cases h1 : lcShiftOne t0 mags lc with
    | error e => rw [h1] at h; cases h
    | ok c =>
      rw [h1] at h
      dsimp only at h
      cases h2 : lcShiftAll t0 mags d with
      | error e => rw [h2] at h; cases h
      | ok rest =>
        rw [h2] at h
        injection h with h
        subst h
        obtain ⟨e1, e2⟩ := ih h2
        unfold lcShiftOne at h1
        split at h1
        · cases h1
        rename_i hc
        split at h1
        · cases h1
        rename_i hd
        rw [not_not] at hd
        injection h1 with h1
        refine ⟨by rw [List.map_cons, ← e1, ← h1]; rfl, ?_⟩
        intro p hp
        rcases List.mem_cons.1 hp with e | e
        · subst e
          refine ⟨?_, inc_of_diff _ hd⟩
          dsimp only
          omega
        · exact e2 p e

theorem ends_spec {pick : List (ℝ × ℝ) → Option (ℝ × ℝ)} {d : Dict Name (List (ℝ × ℝ))} {m : Dict Name ℝ} (h : lcEnds pick d = .ok m) (f : Name) :
    m.get? f = (d.get? f).bind fun lc => (pick lc).map (·.1) := by
  induction d generalizing m with
  | nil => unfold lcEnds at h; injection h with h; subst h; rfl
  | cons p d ih =>
    obtain ⟨g, lc⟩ := p
    unfold lcEnds at h
    cases h1 : pick lc with
    | none => rw [h1] at h; cases h
    | some r =>
      rw [h1] at h
      dsimp only at h
      cases h2 : lcEnds pick d with
      | error e => rw [h2] at h; cases h
      | ok rest =>
        rw [h2] at h
        injection h with h
        subst h
        rw [Dict.get?_cons, Dict.get?_cons]
        by_cases hg : g = f
        · simp [hg, h1]
        · simp [hg, ih h2]

theorem ends_nonempty {pick : List (ℝ × ℝ) → Option (ℝ × ℝ)} {d : Dict Name (List (ℝ × ℝ))} {m : Dict Name ℝ} (h : lcEnds pick d = .ok m) :
    ∀ p ∈ d, ∃ r, pick p.2 = some r := by
  induction d generalizing m with
  | nil => simp
  | cons p d ih =>
    obtain ⟨g, lc⟩ := p
    unfold lcEnds at h
    cases h1 : pick lc with
    | none => rw [h1] at h; cases h
    | some r =>
      rw [h1] at h
      dsimp only at h
      cases h2 : lcEnds pick d with
      | error e => rw [h2] at h; cases h
      | ok rest =>
        intro q hq
        rcases List.mem_cons.1 hq with e | e
        · subst e; exact ⟨r, h1⟩
        · exact ih h2 q e

theorem finish_spec {curves : Dict Name (List (ℝ × ℝ))} {t0 : ℝ} {period : Option ℝ} {mags : Bool} {baseline : Option (Dict Name ℝ)} {d : LcData}
    (h : lcFinish curves t0 period mags baseline = .ok d) :
    d.curves = curves ∧ d.t0 = t0 ∧ d.period = period ∧
    (∀ f, d.minTimes.get? f = (curves.get? f).bind fun lc => lc.head?.map (·.1)) ∧
    (∀ f, d.maxTimes.get? f = (curves.get? f).bind fun lc => lc.getLast?.map (·.1)) ∧
    (∀ p ∈ curves, p.2 ≠ []) ∧
    (∃ b, lcBaseline curves baseline = .ok b ∧ d.baseline = lcConvert mags b) := by
  unfold lcFinish at h
  cases h1 : lcEnds List.head? curves with
  | error e => rw [h1] at h; cases h
  | ok lo =>
    rw [h1] at h
    dsimp only at h
    cases h2 : lcEnds List.getLast? curves with
    | error e => rw [h2] at h; cases h
    | ok hi =>
      rw [h2] at h
      dsimp only at h
      cases h3 : lcBaseline curves baseline with
      | error e => rw [h3] at h; cases h
      | ok b =>
        rw [h3] at h
        injection h with h
        subst h
        refine ⟨rfl, rfl, rfl, ends_spec h1, ends_spec h2, ?_, b, rfl, rfl⟩
        intro p hp he
        obtain ⟨r, hr⟩ := ends_nonempty h1 p hp
        rw [he] at hr
        cases hr

theorem split_data {source : LcSource} {d : Dict Name LcInput} (h : lcSplit source = .ok d) {f : Name} {rows : List (ℝ × ℝ)}
    (hd : DataOf source f rows) : ∃ lc, d.get? f = some lc ∧ lc.rows = rows := by
  cases source with
  | dict d' =>
    unfold lcSplit at h
    injection h with h
    subst h
    obtain ⟨lc, h1, h2⟩ := hd
    exact ⟨lc, h1, h2.symm⟩
  | array cols all =>
    unfold lcSplit at h
    dsimp only at h
    split at h
    · cases h
    injection h with h
    subst h
    obtain ⟨hne, he⟩ := hd
    refine ⟨⟨2, lcRowsOf all f⟩, ?_, he.symm⟩
    have hm : f ∈ npUnique (all.map (·.2.2)) := by
      rw [BandfluxProps.mem_npUnique]
      obtain ⟨r, hr⟩ := List.exists_mem_of_ne_nil _ hne
      rw [he] at hr
      obtain ⟨x, hx, _⟩ := List.mem_map.1 hr
      obtain ⟨hx1, hx2⟩ := List.mem_filter.1 hx
      exact List.mem_map.2 ⟨x, hx1, by simpa using hx2⟩
    revert hm
    generalize npUnique (all.map (·.2.2)) = l
    intro hm
    induction l with
    | nil => cases hm
    | cons g l ih =>
      rw [List.map_cons, Dict.get?_cons]
      by_cases hg : g = f
      · rw [if_pos hg, hg]
      · rw [if_neg hg]
        rcases List.mem_cons.1 hm with e | e
        · exact absurd e.symm hg
        · exact ih e
  | other => cases hd

theorem convert_get (mags : Bool) (b : Dict Name ℝ) (f : Name) : (lcConvert mags b).get? f = (b.get? f).map (conv mags) := by
  unfold lcConvert
  cases mags with
  | true =>
    rw [if_pos rfl, get?_map_pair]
    rfl
  | false =>
    rw [if_neg Bool.false_ne_true]
    have : conv false = id := rfl
    rw [this, Option.map_id]
    rfl

end LCL.TemplateLemmas
