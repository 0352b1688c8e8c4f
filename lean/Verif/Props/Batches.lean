import Verif.Props.EndToEnd

/-!
# Property C117: objects are simulated independently of each other
-/

namespace LCL.BatchProps
open LCL LCL.SimSpec LCL.ObsSpec

variable {R : Type}

theorem sorted_unique : ∀ (l l' : List Nat), l.Pairwise (· < ·) → l'.Pairwise (· < ·) → (∀ i, i ∈ l ↔ i ∈ l') → l = l'
  | [], [], _, _, _ => rfl
  | [], y :: l', _, _, h => absurd ((h y).2 (by simp)) (by simp)
  | x :: l, [], _, _, h => absurd ((h x).1 (by simp)) (by simp)
  | x :: l, y :: l', h1, h2, h => by
    obtain ⟨a1, a2⟩ := List.pairwise_cons.1 h1
    obtain ⟨b1, b2⟩ := List.pairwise_cons.1 h2
    have hxy : x = y := by
      rcases List.mem_cons.1 ((h x).1 (by simp)) with e | e
      · exact e
      · rcases List.mem_cons.1 ((h y).2 (by simp)) with e' | e'
        · exact e'.symm
        · have := b1 x e; have := a1 y e'; omega
    subst hxy
    congr 1
    refine sorted_unique l l' a2 b2 ?_
    intro i
    constructor
    · intro hi
      rcases List.mem_cons.1 ((h i).1 (by simp [hi])) with e | e
      · have := a1 i hi; omega
      · exact e
    · intro hi
      rcases List.mem_cons.1 ((h i).2 (by simp [hi])) with e | e
      · have := b1 i hi; omega
      · exact e

theorem nums_inj {l l' : List ℝ} (h : l.map (fun t => some (Cell.num t)) = l'.map (fun t => some (Cell.num t))) : l = l' := by
  refine List.map_injective_iff.2 ?_ h
  intro a b e
  injection e with e
  injection e

theorem strs_inj {l l' : List Name} (h : l.map (fun t => some (Cell.str t)) = l'.map (fun t => some (Cell.str t))) : l = l' := by
  refine List.map_injective_iff.2 ?_ h
  intro a b e
  injection e with e
  injection e

/-- Two blocks of the same rows from the same random state are the same. -/
theorem block_unique {noise : List ℝ → List ℝ → R → Except Err (List ℝ × R)} {s : Survey R} {st : SState ℝ} {b b' : Block} {r q q' : R}
    (h : BlockOf noise s st b r q) (h' : BlockOf noise s st b' r q') (hr : b.rows = b'.rows) : b = b' ∧ q = q' := by
  obtain ⟨h1, h2, r1, h3, h4, h5⟩ := h
  obtain ⟨k1, k2, r2, k3, k4, k5⟩ := h'
  obtain ⟨rows, times, filters, perfect, err, flux⟩ := b
  obtain ⟨rows', times', filters', perfect', err', flux'⟩ := b'
  dsimp only at *
  subst hr
  have e1 := nums_inj (h1.symm.trans k1)
  have e2 := strs_inj (h2.symm.trans k2)
  subst e1 e2
  rw [h3] at k3
  cases k3
  rw [h4] at k4
  cases k4
  rw [h5] at k5
  cases k5
  exact ⟨rfl, rfl⟩

/-- The noise-free part of a block is the same from any random state, if the model draws none. -/
theorem block_same {noise : List ℝ → List ℝ → R → Except Err (List ℝ × R)} {s : Survey R}
    {st : SState ℝ} (hdet : ∀ ts fs r q out out', s.eval ts fs st r = .ok out → s.eval ts fs st q = .ok out' → out.1 = out'.1) {b b' : Block}
    {r q r' q' : R} (h : BlockOf noise s st b r q) (h' : BlockOf noise s st b' r' q') (hr : b.rows = b'.rows) :
    b.times = b'.times ∧ b.filters = b'.filters ∧ b.perfect = b'.perfect ∧ b.err = b'.err := by
  obtain ⟨h1, h2, r1, h3, h4, h5⟩ := h
  obtain ⟨k1, k2, r2, k3, k4, k5⟩ := h'
  rw [hr] at h1 h2 h4
  have e1 := nums_inj (h1.symm.trans k1)
  have e2 := strs_inj (h2.symm.trans k2)
  rw [e1, e2] at h3
  have e3 := hdet _ _ _ _ _ _ h3 k3
  dsimp only at e3
  rw [e3, k4] at h4
  injection h4 with h4
  exact ⟨e1, e2, e3, h4.symm⟩

/-- Blocks with the same rows, survey by survey. -/
def SameRows (bs bs' : List Block) : Prop := ∀ (j : Nat) (b b' : Block), bs[j]? = some b → bs'[j]? = some b' → b.rows = b'.rows

theorem surveys_unique {noise : List ℝ → List ℝ → R → Except Err (List ℝ × R)} {st : SState ℝ} {surveys : List (Survey R)} {r q : R} {bs : List Block}
    (h : SurveyBlocks noise st surveys r bs q) : ∀ {bs' : List Block} {q' : R}, SurveyBlocks noise st surveys r bs' q' → SameRows bs bs' → bs = bs' ∧ q = q' := by
  induction h with
  | nil r => intro bs' q' h' _; cases h'; exact ⟨rfl, rfl⟩
  | cons hb _ ih =>
    intro bs' q' h' hs
    cases h' with
    | cons hb' hrest' =>
      obtain ⟨rfl, rfl⟩ := block_unique hb hb' (hs 0 _ _ rfl rfl)
      obtain ⟨rfl, rfl⟩ := ih hrest' (fun j b b' h1 h2 => hs (j + 1) b b' (by simpa using h1) (by simpa using h2))
      exact ⟨rfl, rfl⟩

theorem surveys_same {noise : List ℝ → List ℝ → R → Except Err (List ℝ × R)} {st : SState ℝ} {surveys : List (Survey R)} {r q : R} {bs : List Block}
    (h : SurveyBlocks noise st surveys r bs q) (hdet : ∀ s ∈ surveys, ∀ ts fs r q out out', s.eval ts fs st r = .ok out → s.eval ts fs st q = .ok out' → out.1 = out'.1) :
    ∀ {bs' : List Block} {r' q' : R}, SurveyBlocks noise st surveys r' bs' q' → SameRows bs bs' →
      nobsOf bs = nobsOf bs' ∧ ∀ c, c ≠ "flux".toList → ∀ j, surveyColumns j surveys bs c = surveyColumns j surveys bs' c := by
  induction h with
  | nil r => intro bs' r' q' h' _; cases h'; exact ⟨rfl, fun _ _ _ => rfl⟩
  | cons hb _ ih =>
    intro bs' r' q' h' hs
    cases h' with
    | cons hb' hrest' =>
      have hr := hs 0 _ _ rfl rfl
      obtain ⟨e1, e2, e3, e4⟩ := block_same (hdet _ (by simp)) hb hb' hr
      obtain ⟨i1, i2⟩ := ih (fun s hs => hdet s (by simp [hs])) hrest' (fun j b b' h1 h2 => hs (j + 1) b b' (by simpa using h1) (by simpa using h2))
      refine ⟨?_, ?_⟩
      · unfold nobsOf at i1 ⊢
        rw [List.map_cons, List.map_cons, List.sum_cons, List.sum_cons, i1, hr]
      · intro c hc j
        unfold surveyColumns
        rw [i2 c hc]
        congr 1
        unfold Block.column
        rw [e1, e2, e3, e4, hr, if_neg hc, if_neg hc]

/-- The random states between the objects. -/
theorem objects_append {noise : List ℝ → List ℝ → R → Except Err (List ℝ × R)} {surveys : List (Survey R)} : ∀ (A : List SimState) {B : List SimState} {r q : R} {bss : List (List Block)},
    ObjectBlocks noise surveys (A ++ B) r bss q → ∃ bssA bssB m, bss = bssA ++ bssB ∧ ObjectBlocks noise surveys A r bssA m ∧ ObjectBlocks noise surveys B m bssB q
  | [], B, r, q, bss, h => ⟨[], bss, r, rfl, .nil r, h⟩
  | a :: A, B, r, q, bss, h => by
    cases h with
    | cons h1 h2 =>
      obtain ⟨x, y, m, rfl, k1, k2⟩ := objects_append A h2
      exact ⟨_ :: x, y, m, rfl, .cons h1 k1, k2⟩

theorem objects_length {noise : List ℝ → List ℝ → R → Except Err (List ℝ × R)} {surveys : List (Survey R)} {states : List SimState} {r q : R} {bss : List (List Block)}
    (h : ObjectBlocks noise surveys states r bss q) : bss.length = states.length := by
  induction h with
  | nil => rfl
  | cons _ _ ih => simp [ih]

theorem objects_unique {noise : List ℝ → List ℝ → R → Except Err (List ℝ × R)} {surveys : List (Survey R)} {states : List SimState} {r q : R} {bss : List (List Block)}
    (h : ObjectBlocks noise surveys states r bss q) : ∀ {bss' : List (List Block)} {q' : R}, ObjectBlocks noise surveys states r bss' q' →
      (∀ (k : Nat) (bs bs' : List Block), bss[k]? = some bs → bss'[k]? = some bs' → SameRows bs bs') → bss = bss' ∧ q = q' := by
  induction h with
  | nil => intro bss' q' h' _; cases h'; exact ⟨rfl, rfl⟩
  | cons hb _ ih =>
    intro bss' q' h' hs
    cases h' with
    | cons hb' hrest' =>
      obtain ⟨rfl, rfl⟩ := surveys_unique hb hb' (hs 0 _ _ rfl rfl)
      obtain ⟨rfl, rfl⟩ := ih hrest' (fun j b b' h1 h2 => hs (j + 1) b b' (by simpa using h1) (by simpa using h2))
      exact ⟨rfl, rfl⟩

theorem objects_at {noise : List ℝ → List ℝ → R → Except Err (List ℝ × R)} {surveys : List (Survey R)} {states : List SimState} {r q : R} {bss : List (List Block)}
    (h : ObjectBlocks noise surveys states r bss q) : ∀ {k : Nat} {s : SimState} {bs : List Block}, states[k]? = some s → bss[k]? = some bs →
      ∃ m m', SurveyBlocks noise s.state surveys m bs m' := by
  induction h with
  | nil => intro k s bs h1 _; simp at h1
  | cons hb _ ih =>
    intro k s bs h1 h2
    cases k with
    | zero => simp only [List.getElem?_cons_zero, Option.some.injEq] at h1 h2; subst h1 h2; exact ⟨_, _, hb⟩
    | succ k => simp only [List.getElem?_cons_succ] at h1 h2; exact ih h1 h2

theorem survey_length {noise : List ℝ → List ℝ → R → Except Err (List ℝ × R)} {st : SState ℝ} {surveys : List (Survey R)} {r q : R} {bs : List Block}
    (h : SurveyBlocks noise st surveys r bs q) : bs.length = surveys.length := by
  induction h with
  | nil => rfl
  | cons _ _ ih => simp [ih]

/-- What C40 says of the rows of a block. -/
def RowsOf (mask : Option (List ℝ → SState ℝ → List Bool)) (offset : Option (List (Option ℝ))) (s : SimState) (sv : Survey R) (b : Block) : Prop :=
  ∀ rad, sv.table.radius = some rad → 0 ≤ rad → rad ≤ 180 → ∃ ra dec matched all, s.ra = some ra ∧ s.dec = some dec ∧ matched.Pairwise (· < ·) ∧
    (∀ i, i ∈ matched ↔ Match sv.table (ra, dec) rad (winLo offset s.t0) (winHi offset s.t0) i) ∧
    matched.map (entryOf sv.table "time".toList) = (all : List ℝ).map (fun t => some (.num t)) ∧ b.rows = usedRows mask s.state matched all

theorem rows_unique {mask : Option (List ℝ → SState ℝ → List Bool)} {offset : Option (List (Option ℝ))} {s : SimState} {sv : Survey R} {b b' : Block}
    (hrad : ∃ rad, sv.table.radius = some rad ∧ 0 ≤ rad ∧ rad ≤ 180) (h : RowsOf mask offset s sv b) (h' : RowsOf mask offset s sv b') : b.rows = b'.rows := by
  obtain ⟨rad, h1, h2, h3⟩ := hrad
  obtain ⟨ra, dec, m, all, a1, a2, a3, a4, a5, a6⟩ := h rad h1 h2 h3
  obtain ⟨ra', dec', m', all', b1, b2, b3, b4, b5, b6⟩ := h' rad h1 h2 h3
  rw [a1] at b1; rw [a2] at b2
  cases b1; cases b2
  have hm : m = m' := sorted_unique m m' a3 b3 (fun i => (a4 i).trans (b4 i).symm)
  subst hm
  have ha := nums_inj (a5.symm.trans b5)
  subst ha
  rw [a6, b6]

theorem same_rows {noise : List ℝ → List ℝ → R → Except Err (List ℝ × R)} {st : SState ℝ} {surveys : List (Survey R)} {mask : Option (List ℝ → SState ℝ → List Bool)}
    {offset : Option (List (Option ℝ))} {s : SimState} {bs bs' : List Block} {r q : R} (hb : SurveyBlocks noise st surveys r bs q)
    (hrad : ∀ sv ∈ surveys, ∃ rad, sv.table.radius = some rad ∧ 0 ≤ rad ∧ rad ≤ 180)
    (h : ∀ (j : Nat) (sv : Survey R) (b : Block), surveys[j]? = some sv → bs[j]? = some b → RowsOf mask offset s sv b) (h' : ∀ (j : Nat) (sv : Survey R) (b : Block), surveys[j]? = some sv → bs'[j]? = some b → RowsOf mask offset s sv b) :
    SameRows bs bs' := by
  intro j b b' h1 h2
  have hj : j < surveys.length := by rw [← survey_length hb]; exact (List.getElem?_eq_some_iff.1 h1).1
  have hs : surveys[j]? = some surveys[j] := List.getElem?_eq_getElem hj
  exact rows_unique (hrad _ (List.getElem_mem hj)) (h j _ b hs h1) (h' j _ b' hs h2)

/-- C117. Simulating objects in two batches, the second with the generator the first left, gives the lightcurves of simulating them together: object `k` of the joint
simulation has, in every column, the lightcurve of object `k` of the first batch or of object `k - n` of the second, and the generator ends in the same state. -/
theorem C117_batches {noise : List ℝ → List ℝ → R → Except Err (List ℝ × R)} {isBand : Bool} {A B : List SimState} {surveys : List (Survey R)} {npb : Nat}
    {saveCols : List Name} {mask : Option (List ℝ → SState ℝ → List Bool)} {offset : Option (List (Option ℝ))} {r r₁ r₂ r' : R} {resA resB res : SimResult}
    (hsh : Shaped noise surveys) (hnd : saveCols.Nodup) (hdis : ∀ c ∈ saveCols, c ∉ baseCols) (hbuilt : ∀ s ∈ surveys, Built s.table)
    (hrad : ∀ s ∈ surveys, ∃ rad, s.table.radius = some rad ∧ 0 ≤ rad ∧ rad ≤ 180)
    (hA : simulateLightcurves noise isBand A surveys npb saveCols mask offset r = .ok (resA, r₁))
    (hB : simulateLightcurves noise isBand B surveys npb saveCols mask offset r₁ = .ok (resB, r₂))
    (h : simulateLightcurves noise isBand (A ++ B) surveys npb saveCols mask offset r = .ok (res, r')) :
    r' = r₂ ∧ res.nobs = resA.nobs ++ resB.nobs ∧ res.ra = resA.ra ++ resB.ra ∧ res.dec = resA.dec ++ resB.dec ∧
    ∀ c ∈ baseCols ++ saveCols, (∀ k < A.length, lightcurve res.nested k c = lightcurve resA.nested k c) ∧
      ∀ k < B.length, lightcurve res.nested (A.length + k) c = lightcurve resB.nested k c := by
  obtain ⟨_, x2, x3, bss, x4, x5, x6, x7, x8⟩ := SimulateProps.C40_lightcurves_partial hsh hnd hdis hbuilt h
  obtain ⟨_, a2, a3, bssA, a4, a5, a6, a7, a8⟩ := SimulateProps.C40_lightcurves_partial hsh hnd hdis hbuilt hA
  obtain ⟨_, b2, b3, bssB, b4, b5, b6, b7, b8⟩ := SimulateProps.C40_lightcurves_partial hsh hnd hdis hbuilt hB
  obtain ⟨y, z, m, rfl, k1, k2⟩ := objects_append A x4
  have hy : y.length = A.length := objects_length k1
  have hz : z.length = B.length := objects_length k2
  have hA' : y = bssA ∧ m = r₁ := by
    refine objects_unique k1 a4 ?_
    intro k bs bs' h1 h2
    have hk : k < A.length := by rw [← hy]; exact (List.getElem?_eq_some_iff.1 h1).1
    have hs : A[k]? = some A[k] := List.getElem?_eq_getElem hk
    obtain ⟨m1, m2, hsb⟩ := objects_at k1 hs h1
    refine same_rows (mask := mask) (offset := offset) (s := A[k]) hsb hrad ?_ ?_
    · intro j sv b e1 e2
      exact x8 k j A[k] sv bs b (by rw [List.getElem?_append_left hk]; exact hs) e1 (by rw [List.getElem?_append_left (by omega)]; exact h1) e2
    · intro j sv b e1 e2
      exact a8 k j A[k] sv bs' b hs e1 h2 e2
  obtain ⟨rfl, rfl⟩ := hA'
  have hB' : z = bssB ∧ r' = r₂ := by
    refine objects_unique k2 b4 ?_
    intro k bs bs' h1 h2
    have hk : k < B.length := by rw [← hz]; exact (List.getElem?_eq_some_iff.1 h1).1
    have hs : B[k]? = some B[k] := List.getElem?_eq_getElem hk
    obtain ⟨m1, m2, hsb⟩ := objects_at k2 hs h1
    refine same_rows (mask := mask) (offset := offset) (s := B[k]) hsb hrad ?_ ?_
    · intro j sv b e1 e2
      exact x8 (A.length + k) j B[k] sv bs b (by rw [List.getElem?_append_right (by omega), Nat.add_sub_cancel_left]; exact hs) e1
        (by rw [List.getElem?_append_right (by omega), hy, Nat.add_sub_cancel_left]; exact h1) e2
    · intro j sv b e1 e2
      exact b8 k j B[k] sv bs' b hs e1 h2 e2
  obtain ⟨rfl, rfl⟩ := hB'
  refine ⟨rfl, by rw [x6, a6, b6, List.map_append], by rw [x2, a2, b2, List.map_append], by rw [x3, a3, b3, List.map_append], ?_⟩
  intro c hc
  constructor
  · intro k hk
    have hb : y[k]? = some (y[k]'(by omega)) := List.getElem?_eq_getElem (by omega)
    rw [(x7 k _ (by rw [List.getElem?_append_left (by omega)]; exact hb) c hc).1, (a7 k _ hb c hc).1]
  · intro k hk
    have hb : z[k]? = some (z[k]'(by omega)) := List.getElem?_eq_getElem (by omega)
    rw [(x7 (A.length + k) _ (by rw [List.getElem?_append_right (by omega), hy, Nat.add_sub_cancel_left]; exact hb) c hc).1, (b7 k _ hb c hc).1]

/-- C117. The observations of an object and everything that is not random about them (times, filters, noise-free fluxes, errors, surveys, saved columns) depend on the
object alone: they are the same in any two simulations in which it occurs, at whatever positions, among whatever other objects and with whatever generators (for models
that draw no random numbers). -/
theorem C117_independent {noise : List ℝ → List ℝ → R → Except Err (List ℝ × R)} {isBand : Bool} {A B : List SimState} {surveys : List (Survey R)} {npb : Nat}
    {saveCols : List Name} {mask : Option (List ℝ → SState ℝ → List Bool)} {offset : Option (List (Option ℝ))} {r r₁ q q₁ : R} {resA resB : SimResult}
    (hsh : Shaped noise surveys) (hnd : saveCols.Nodup) (hdis : ∀ c ∈ saveCols, c ∉ baseCols) (hbuilt : ∀ s ∈ surveys, Built s.table)
    (hrad : ∀ s ∈ surveys, ∃ rad, s.table.radius = some rad ∧ 0 ≤ rad ∧ rad ≤ 180)
    (hA : simulateLightcurves noise isBand A surveys npb saveCols mask offset r = .ok (resA, r₁))
    (hB : simulateLightcurves noise isBand B surveys npb saveCols mask offset q = .ok (resB, q₁))
    (k l : Nat) (s : SimState) (hk : A[k]? = some s) (hl : B[l]? = some s)
    (hdet : ∀ sv ∈ surveys, ∀ ts fs r q out out', sv.eval ts fs s.state r = .ok out → sv.eval ts fs s.state q = .ok out' → out.1 = out'.1) :
    resA.nobs[k]? = resB.nobs[l]? ∧ ∀ c ∈ baseCols ++ saveCols, c ≠ "flux".toList → lightcurve resA.nested k c = lightcurve resB.nested l c := by
  obtain ⟨_, a2, a3, bssA, a4, a5, a6, a7, a8⟩ := SimulateProps.C40_lightcurves_partial hsh hnd hdis hbuilt hA
  obtain ⟨_, b2, b3, bssB, b4, b5, b6, b7, b8⟩ := SimulateProps.C40_lightcurves_partial hsh hnd hdis hbuilt hB
  have hkl : k < bssA.length := by rw [a5]; exact (List.getElem?_eq_some_iff.1 hk).1
  have hll : l < bssB.length := by rw [b5]; exact (List.getElem?_eq_some_iff.1 hl).1
  have e1 : bssA[k]? = some bssA[k] := List.getElem?_eq_getElem hkl
  have e2 : bssB[l]? = some bssB[l] := List.getElem?_eq_getElem hll
  obtain ⟨m1, m2, hsA⟩ := objects_at a4 hk e1
  obtain ⟨n1, n2, hsB⟩ := objects_at b4 hl e2
  have hsame := same_rows (mask := mask) (offset := offset) (s := s) (bs' := bssB[l]) hsA hrad (fun j sv b h1 h2 => a8 k j s sv _ b hk h1 e1 h2) (fun j sv b h1 h2 => b8 l j s sv _ b hl h1 e2 h2)
  obtain ⟨i1, i2⟩ := surveys_same hsA hdet hsB hsame
  refine ⟨?_, ?_⟩
  · rw [a6, b6, List.getElem?_map, List.getElem?_map, e1, e2]
    exact congrArg some i1
  · intro c hc hf
    rw [(a7 k _ e1 c hc).1, (b7 l _ e2 c hc).1]
    exact i2 c hf 0

/-! ### For whole simulations -/

open LCL.EndToEnd LCL.EndToEndSpec in
/-- C117. Nothing an object's lightcurve records but the noisy flux depends on the other objects or on the generator: for an SED model with observer-frame spectrum
`H`, the object has the same number of observations and the same columns in any two simulations against the same surveys. -/
theorem C117_spectrum {V W R : Type} {m : SEDModel V W R ℝ} {noKw : W} {draw : R → ℝ × R} {A B : List SimState} {args : List SurveyArg} {saveCols : List Name}
    {offset : Option (List (Option ℝ))} {r r₁ q q₁ : R} {resA resB : SimResult} (H : ℝ → ℝ → ℝ)
    (hgrid : ∀ a ∈ args, ∀ f pb, a.group.getItem f = .ok pb → ExactGrid pb) (hbuilt : ∀ a ∈ args, Built a.table)
    (hrad : ∀ a ∈ args, ∃ rad, a.table.radius = some rad ∧ 0 ≤ rad ∧ rad ≤ 180) (hsave : saveCols.Nodup ∧ ∀ c ∈ saveCols, c ∉ baseCols)
    (hA : EndToEnd.simulate m noKw draw A args saveCols offset r = .ok (resA, r₁)) (hB : EndToEnd.simulate m noKw draw B args saveCols offset q = .ok (resB, q₁))
    (k l : Nat) (s : SimState) (hk : A[k]? = some s) (hl : B[l]? = some s) (hobs : ∀ a ∈ args, ObservesIn m noKw s.state a.group H) :
    resA.nobs[k]? = resB.nobs[l]? ∧ ∀ c ∈ baseCols ++ saveCols, c ≠ "flux".toList → lightcurve resA.nested k c = lightcurve resB.nested l c := by
  refine C117_independent (EndToEndProps.shaped m noKw draw args) hsave.1 hsave.2 ?_ ?_ hA hB k l s hk hl ?_
  · intro x hx; obtain ⟨a, ha, rfl⟩ := List.mem_map.1 hx; exact hbuilt a ha
  · intro x hx; obtain ⟨a, ha, rfl⟩ := List.mem_map.1 hx; exact hrad a ha
  · intro x hx ts fs r q out out' h1 h2
    obtain ⟨a, ha, rfl⟩ := List.mem_map.1 hx
    obtain ⟨p, r1⟩ := out
    obtain ⟨p', r1'⟩ := out'
    obtain ⟨-, l1, l2, v⟩ := EndToEndProps.eval_values (hobs a ha) (hgrid a ha) h1
    obtain ⟨-, l1', -, v'⟩ := EndToEndProps.eval_values (hobs a ha) (hgrid a ha) h2
    dsimp only
    refine List.ext_getElem? ?_
    intro i
    by_cases hi : i < ts.length
    · obtain ⟨pb, g1, e1⟩ := v i _ _ (List.getElem?_eq_getElem hi) (List.getElem?_eq_getElem (by omega))
      obtain ⟨pb', g2, e2⟩ := v' i _ _ (List.getElem?_eq_getElem hi) (List.getElem?_eq_getElem (by omega))
      rw [g1] at g2
      cases g2
      rw [e1, e2]
    · rw [List.getElem?_eq_none (by omega), List.getElem?_eq_none (by omega)]

open LCL.EndToEnd LCL.EndToEndSpec in
/-- C117. Splitting a simulation of an SED model into two batches, passing the generator on, changes nothing, not even the noise. -/
theorem C117_split {V W R : Type} {m : SEDModel V W R ℝ} {noKw : W} {draw : R → ℝ × R} {A B : List SimState} {args : List SurveyArg} {saveCols : List Name}
    {offset : Option (List (Option ℝ))} {r r₁ r₂ r' : R} {resA resB res : SimResult} (hbuilt : ∀ a ∈ args, Built a.table)
    (hrad : ∀ a ∈ args, ∃ rad, a.table.radius = some rad ∧ 0 ≤ rad ∧ rad ≤ 180) (hsave : saveCols.Nodup ∧ ∀ c ∈ saveCols, c ∉ baseCols)
    (hA : EndToEnd.simulate m noKw draw A args saveCols offset r = .ok (resA, r₁)) (hB : EndToEnd.simulate m noKw draw B args saveCols offset r₁ = .ok (resB, r₂))
    (h : EndToEnd.simulate m noKw draw (A ++ B) args saveCols offset r = .ok (res, r')) :
    r' = r₂ ∧ res.nobs = resA.nobs ++ resB.nobs ∧ res.ra = resA.ra ++ resB.ra ∧ res.dec = resA.dec ++ resB.dec ∧
    ∀ c ∈ baseCols ++ saveCols, (∀ k < A.length, lightcurve res.nested k c = lightcurve resA.nested k c) ∧
      ∀ k < B.length, lightcurve res.nested (A.length + k) c = lightcurve resB.nested k c := by
  refine C117_batches (EndToEndProps.shaped m noKw draw args) hsave.1 hsave.2 ?_ ?_ hA hB h
  · intro x hx; obtain ⟨a, ha, rfl⟩ := List.mem_map.1 hx; exact hbuilt a ha
  · intro x hx; obtain ⟨a, ha, rfl⟩ := List.mem_map.1 hx; exact hrad a ha

/-! ### A concrete run -/

open EndToEndProps in
theorem demo_runs (draw : Nat → ℝ × Nat) {states : List SimState} (hne : states ≠ []) (hs : ∀ s ∈ states, ∃ ra, s = constState ra) (r : Nat) :
    ∃ res r', EndToEnd.simulate constModel () draw states [lsstArg, lsstArg] [] (some [some 1, none]) r = .ok (res, r') := by
  have harg : ∀ a ∈ [lsstArg, lsstArg], a = lsstArg := by intro a ha; simpa using ha
  exact C110_succeeds (m := constModel) (noKw := ()) draw (states := states) (args := [lsstArg, lsstArg])
    (offset := some [some 1, none]) (fun _ _ _ => 10) hne (by intro s h a _; obtain ⟨ra, rfl⟩ := hs s h; exact observes_in (const_observes ra) a.group) (by intros; norm_num)
    (by intro a ha; rw [harg a ha]; exact gGroup_grid) (by intro a ha; rw [harg a ha]; exact lsst_sound)
    (by intro s h; obtain ⟨ra, rfl⟩ := hs s h; exact ⟨_, _, rfl, rfl⟩)
    (Or.inr ⟨_, _, rfl, by intro s h; obtain ⟨ra, rfl⟩ := hs s h; exact ⟨_, rfl⟩⟩) r

open EndToEndProps in
/-- Two objects together, and each on its own: all three simulations succeed and the claims of `C117_split` and `C117_spectrum` apply. -/
example (draw : Nat → ℝ × Nat) : ∃ res resA resB r₁ r₂ r',
    EndToEnd.simulate constModel () draw ([constState 0] ++ [constState 90]) [lsstArg, lsstArg] [] (some [some 1, none]) 4 = .ok (res, r') ∧
    EndToEnd.simulate constModel () draw [constState 0] [lsstArg, lsstArg] [] (some [some 1, none]) 4 = .ok (resA, r₁) ∧
    EndToEnd.simulate constModel () draw [constState 90] [lsstArg, lsstArg] [] (some [some 1, none]) r₁ = .ok (resB, r₂) ∧
    r' = r₂ ∧ lightcurve res.nested 1 "flux".toList = lightcurve resB.nested 0 "flux".toList ∧ res.nobs[0]? = resA.nobs[0]? := by
  have harg : ∀ a ∈ [lsstArg, lsstArg], a = lsstArg := by intro a ha; simpa using ha
  obtain ⟨res, r', h⟩ := demo_runs draw (states := [constState 0] ++ [constState 90]) (by simp) (by intro s hs; simp at hs; rcases hs with rfl | rfl <;> exact ⟨_, rfl⟩) 4
  obtain ⟨resA, r₁, hA⟩ := demo_runs draw (states := [constState 0]) (by simp) (by intro s hs; simp at hs; exact ⟨_, hs⟩) 4
  obtain ⟨resB, r₂, hB⟩ := demo_runs draw (states := [constState 90]) (by simp) (by intro s hs; simp at hs; exact ⟨_, hs⟩) r₁
  have hb : ∀ a ∈ [lsstArg, lsstArg], Built a.table := by intro a ha; rw [harg a ha]; exact lsst_built
  have hr : ∀ a ∈ [lsstArg, lsstArg], ∃ rad, a.table.radius = some rad ∧ 0 ≤ rad ∧ rad ≤ 180 := by intro a ha; rw [harg a ha]; exact ⟨1, rfl, by norm_num, by norm_num⟩
  obtain ⟨e1, -, -, -, e2⟩ := C117_split hb hr (by simp) hA hB h
  obtain ⟨e3, -⟩ := C117_spectrum (fun _ _ => 10) (by intro a ha; rw [harg a ha]; exact gGroup_grid) hb hr (by simp) h hA 0 0 (constState 0) rfl rfl (fun a _ => observes_in (const_observes 0) a.group)
  exact ⟨res, resA, resB, r₁, r₂, r', h, hA, hB, e1, (e2 "flux".toList (by decide)).2 0 (by simp), e3⟩

end LCL.BatchProps
