import Verif.Spec.Lclib
import Mathlib.Data.List.Basic

/-!
# Lemmas on the LCLIB reader
-/

namespace LCL.LcLemmas
open LCL LCL.LcSpec

theorem takeWhile_tail {a t : List Char} (ha : '#' ∉ a) (ht : Tail t) : (a ++ t).takeWhile (fun c => decide (c ≠ '#')) = a := by
  induction a with
  | nil =>
    rcases ht with rfl | ht
    · rfl
    · cases t with
      | nil => rfl
      | cons c t => simp only [List.head?_cons, Option.some.injEq] at ht; subst ht; rfl
  | cons x a ih =>
    simp only [List.mem_cons, not_or] at ha
    rw [List.cons_append, List.takeWhile_cons_of_pos (by simpa using Ne.symm ha.1), ih ha.2]

theorem dropWhile_cons_append {p : Char → Bool} {c : Char} (hc : p c = false) (x y : List Char) :
    (x ++ c :: y).dropWhile p = x.dropWhile p ++ c :: y := by
  induction x with
  | nil => simp [List.dropWhile_cons, hc]
  | cons a x ih =>
    by_cases h : p a = true
    · simp only [List.cons_append, List.dropWhile_cons, h, if_true, ih]
    · simp only [List.cons_append, List.dropWhile_cons, h]; rfl

theorem dropWhile_blank {x : List Char} (hx : Blank x) (y : List Char) : (x ++ y).dropWhile isSpace = y.dropWhile isSpace := by
  induction x with
  | nil => rfl
  | cons a x ih =>
    rw [List.cons_append, List.dropWhile_cons_of_pos (hx a (by simp)), ih (fun c hc => hx c (List.mem_cons_of_mem _ hc))]

theorem dropWhile_head {y : List Char} (h : ∀ c, y.head? = some c → isSpace c = false) : y.dropWhile isSpace = y := by
  cases y with
  | nil => rfl
  | cons a y => rw [List.dropWhile_cons_of_neg]; rw [h a rfl]; simp

theorem blank_reverse {x : List Char} (hx : Blank x) : Blank x.reverse := fun c hc => hx c (List.mem_reverse.1 hc)

theorem rstrip_cons {c : Char} (hc : isSpace c = false) (a b : List Char) : rstrip (a ++ c :: b) = a ++ c :: rstrip b := by
  unfold rstrip
  have : (a ++ c :: b).reverse = b.reverse ++ c :: a.reverse := by simp
  rw [this, dropWhile_cons_append hc]
  simp

theorem rstrip_blank {p : List Char} (hp : Blank p) (x : List Char) : rstrip (x ++ p) = rstrip x := by
  unfold rstrip
  rw [List.reverse_append, dropWhile_blank (blank_reverse hp)]

theorem rstrip_last {x : List Char} (h : ∀ c, x.getLast? = some c → isSpace c = false) : rstrip x = x := by
  unfold rstrip
  rw [dropWhile_head (by intro c hc; rw [List.head?_reverse] at hc; exact h c hc), List.reverse_reverse]

theorem strip_mem {l : List Char} {c : Char} (h : c ∈ strip l) : c ∈ l := by
  unfold strip rstrip at h
  rw [List.mem_reverse] at h
  have h1 := (List.dropWhile_sublist _).mem h
  rw [List.mem_reverse] at h1
  exact (List.dropWhile_sublist _).mem h1

theorem strip_pad {mid v post : List Char} (hm : Blank mid) (hp : Blank post) (hv : Trimmed v) :
    strip (rstrip (mid ++ v ++ post)) = v := by
  rw [rstrip_blank hp]
  cases v with
  | nil =>
    rw [List.append_nil]
    have : rstrip mid = [] := by rw [← List.nil_append mid, rstrip_blank hm]; rfl
    rw [this]; rfl
  | cons a v =>
    have hl : ∀ c, (mid ++ a :: v).getLast? = some c → isSpace c = false := by
      intro c hc
      apply hv.2 c
      rw [← hc, List.getLast?_append]
      cases hh : (a :: v).getLast? with
      | none => simp at hh
      | some y => rfl
    rw [rstrip_last hl]
    unfold strip
    rw [dropWhile_blank hm, dropWhile_head hv.1, rstrip_last hv.2]

theorem splitFirst_cons {c : Char} {a : List Char} (ha : c ∉ a) (b : List Char) : splitFirst c (a ++ c :: b) = some (a, b) := by
  induction a with
  | nil => simp [splitFirst]
  | cons x a ih =>
    simp only [List.mem_cons, not_or] at ha
    simp only [List.cons_append, splitFirst]
    rw [if_neg (Ne.symm ha.1), ih ha.2]

theorem splitFirst_none {c : Char} {a : List Char} (ha : c ∉ a) : splitFirst c a = none := by
  induction a with
  | nil => rfl
  | cons x a ih =>
    simp only [List.mem_cons, not_or] at ha
    simp only [splitFirst]
    rw [if_neg (Ne.symm ha.1), ih ha.2]

theorem colon_not_space : isSpace ':' = false := rfl

theorem notmem_blank {l : List Char} {c : Char} (hl : Blank l) (hc : isSpace c = false) : c ∉ l := by
  intro h; rw [hl c h] at hc; cases hc

theorem keyValue_says {line k v : List Char} (h : Says line k v) : lcKeyValue line = some (k, v) := by
  obtain ⟨pre, mid, post, tail, rfl, h1, h2, h3, h4, h5, h6, h7, h8, h9⟩ := h
  unfold lcKeyValue
  have hs : isSpace '#' = false := rfl
  rw [takeWhile_tail _ h4]
  · unfold strip
    rw [List.append_assoc, dropWhile_blank h1, dropWhile_head, rstrip_cons colon_not_space, splitFirst_cons h6]
    · dsimp only
      exact congrArg (fun y => some (k, y)) (strip_pad h2 h3 h9)
    · intro c hc
      cases k with
      | nil => simp only [List.nil_append, List.head?_cons, Option.some.injEq] at hc; subst hc; rfl
      | cons a k => exact h5 c hc
  · simp only [List.mem_append, List.mem_cons, not_or]
    exact ⟨⟨notmem_blank h1 hs, h7⟩, by decide, ⟨notmem_blank h2 hs, h8⟩, notmem_blank h3 hs⟩

theorem keyValue_silent {line : List Char} (h : Silent line) : lcKeyValue line = none := by
  obtain ⟨body, tail, rfl, h1, h2, h3⟩ := h
  unfold lcKeyValue
  rw [takeWhile_tail h2 h1, splitFirst_none (fun h => h3 (strip_mem h))]

/-! ### Words and commas -/

theorem splitWords_blank {sp : List Char} (h : Blank sp) (r : List Char) : splitWords (sp ++ r) = splitWords r := by
  induction sp with
  | nil => rfl
  | cons a sp ih =>
    have ha := h a (by simp)
    rw [List.cons_append, splitWords.eq_def]
    dsimp only
    rw [if_pos ha, ih (fun c hc => h c (List.mem_cons_of_mem _ hc))]

theorem splitWords_word {w : List Char} (hw : w ≠ []) (hs : ∀ c ∈ w, isSpace c = false) {r : List Char}
    (hr : ∀ c, r.head? = some c → isSpace c = true) : splitWords (w ++ r) = w :: splitWords r := by
  induction w with
  | nil => exact absurd rfl hw
  | cons a w ih =>
    have ha := hs a (by simp)
    cases w with
    | nil =>
      cases r with
      | nil => simp [splitWords, ha]
      | cons b r =>
        have hb := hr b rfl
        rw [List.cons_append, List.nil_append, splitWords.eq_def]
        dsimp only
        rw [if_neg (by rw [ha]; simp), if_pos hb]
    | cons b w =>
      have hb := hs b (by simp)
      have := ih (by simp) (fun c hc => hs c (List.mem_cons_of_mem _ hc))
      rw [List.cons_append, splitWords.eq_def]
      dsimp only
      rw [List.cons_append] at this ⊢
      dsimp only
      rw [if_neg (by rw [ha]; simp), if_neg (by rw [hb]; simp), this]

theorem splitWords_words {v : List Char} {ws : List (List Char)} (h : Words v ws) : splitWords v = ws := by
  induction h with
  | nil => rfl
  | one h1 h2 => have := splitWords_word h1 h2 (r := []) (by simp); rw [List.append_nil] at this; rw [this]; rfl
  | @cons w sp rest ws h1 h2 h3 h4 _ ih =>
    rw [List.append_assoc, splitWords_word h1 h2, splitWords_blank h4, ih]
    intro c hc
    cases sp with
    | nil => exact absurd rfl h3
    | cons x sp =>
      simp only [List.cons_append, List.head?_cons, Option.some.injEq] at hc
      subst hc; exact h4 _ (by simp)

theorem splitChar_none {c : Char} {p : List Char} (h : c ∉ p) : splitChar c p = [p] := by
  induction p with
  | nil => rfl
  | cons x p ih =>
    simp only [List.mem_cons, not_or] at h
    simp only [splitChar]
    rw [if_neg (Ne.symm h.1), ih h.2]

theorem splitChar_cons {c : Char} {p : List Char} (h : c ∉ p) (r : List Char) : splitChar c (p ++ c :: r) = p :: splitChar c r := by
  induction p with
  | nil => simp [splitChar]
  | cons x p ih =>
    simp only [List.mem_cons, not_or] at h
    simp only [List.cons_append, splitChar]
    rw [if_neg (Ne.symm h.1), ih h.2]

theorem splitChar_commas {v : List Char} {ps : List (List Char)} (h : Commas v ps) : splitChar ',' v = ps := by
  obtain ⟨rfl, hne, hp⟩ := h
  induction ps with
  | nil => exact absurd rfl hne
  | cons p ps ih =>
    cases ps with
    | nil => simpa [List.intercalate] using splitChar_none (hp p (by simp))
    | cons q ps =>
      have e : [','].intercalate (p :: q :: ps) = p ++ ',' :: [','].intercalate (q :: ps) := by
        simp [List.intercalate, List.intersperse]
      rw [e, splitChar_cons (hp p (by simp)), ih (by simp) (fun x hx => hp x (List.mem_cons_of_mem _ hx))]

theorem parvals_commas {v : List Char} {ps : List (List Char)} (h : Commas v ps) (h2 : 2 ≤ ps.length) : lcParvals v = ps := by
  unfold lcParvals
  rw [if_pos, splitChar_commas h]
  obtain ⟨rfl, _, _⟩ := h
  match ps with
  | [] => simp at h2
  | [_] => simp at h2
  | p :: q :: ps => simp [List.intercalate, List.intersperse]

theorem parvals_words {v : List Char} {ps : List (List Char)} (h : ',' ∉ v) (hw : Words v ps) : lcParvals v = ps := by
  unfold lcParvals; rw [if_neg h, splitWords_words hw]

/-! ### Running the statements -/

variable {F : Type} {parse : Name → Option F}

/-- The statements one after the other. -/
def run (parse : Name → Option F) : List (Name × Name) → LcState F → Except Err (LcState F)
  | [], s => .ok s
  | (k, v) :: r, s => match lcStmt parse k v s with
    | .error e => .error e
    | .ok s' => run parse r s'

theorem run_append (a b : List (Name × Name)) (s : LcState F) : run parse (a ++ b) s = (match run parse a s with
    | .error e => .error e
    | .ok s' => run parse b s') := by
  induction a generalizing s with
  | nil => rfl
  | cons q a ih =>
    obtain ⟨k, v⟩ := q
    simp only [List.cons_append, run]
    cases lcStmt parse k v s with
    | error e => rfl
    | ok s' => exact ih s'

theorem lcStmt_doc {k v : Name} {s s' : LcState F} (h : lcStmt parse k v s = .ok s') : s'.doc = s.doc := by
  unfold lcStmt at h
  split at h
  · injection h with h; subst h; rfl
  split at h
  · injection h with h; subst h; rfl
  split at h
  · unfold lcEnd at h
    split at h
    · cases h
    split at h
    · injection h with h; subst h; rfl
    · cases h
  split at h
  · unfold lcStart at h
    split at h
    · cases h
    · injection h with h; subst h; rfl
  split at h
  · unfold lcRow at h
    split at h
    · cases h
    · split at h
      · cases h
      · split at h
        · cases h
        · injection h with h; subst h; rfl
  split at h
  · injection h with h; subst h; rfl
  split at h
  · unfold lcParval at h
    split at h
    · cases h
    · injection h with h; subst h; rfl
  · injection h with h; subst h; rfl

theorem lcLines_append (a b : List (List Char)) (s : LcState F) : lcLines parse (a ++ b) s = (match lcLines parse a s with
    | .error e => .error e
    | .ok s' => lcLines parse b s') := by
  induction a generalizing s with
  | nil => rfl
  | cons l a ih =>
    simp only [List.cons_append, lcLines]
    cases lcLine parse l s with
    | error e => rfl
    | ok s' => exact ih s'

theorem doc_false (s : LcState F) (h : s.doc = false) : { s with doc := false } = s := by
  cases s; simp only at h; subst h; rfl

theorem lcDoc_out {k : Name} (h : k ≠ "DOCUMENTATION".toList) : lcDoc k false = false := by
  unfold lcDoc; rw [if_neg h]; exact ite_self _

theorem lcDoc_in {k : Name} (h : k ≠ "DOCUMENTATION_END".toList) : lcDoc k true = true := by
  unfold lcDoc; rw [if_neg h]; exact ite_self _

theorem docBlock {block : List (List Char)} (hb : ∀ l ∈ block, Silent l ∨ ∃ k u, Says l k u ∧ k ≠ "DOCUMENTATION_END".toList)
    (s : LcState F) (h : s.doc = true) : lcLines parse block s = .ok s := by
  induction block with
  | nil => rfl
  | cons l block ih =>
    have hl : lcLine parse l s = .ok s := by
      rcases hb l (by simp) with h1 | ⟨k, u, h1, h2⟩
      · unfold lcLine; rw [keyValue_silent h1]
      · unfold lcLine
        rw [keyValue_says h1]
        dsimp only
        have : lcDoc k s.doc = true := by rw [h]; exact lcDoc_in h2
        rw [if_pos this]
        cases s; simp only at h; subst h; rfl
    simp only [lcLines, hl]
    exact ih (fun l hl => hb l (List.mem_cons_of_mem _ hl))

theorem reads_run {lines : List (List Char)} {stmts : List (Name × Name)} (h : Reads lines stmts) (s : LcState F) (hd : s.doc = false)
    (rest : List (List Char)) :
    lcLines parse (lines ++ rest) s = (match run parse stmts s with
      | .error e => .error e
      | .ok s' => lcLines parse rest s') := by
  have one : ∀ {line k v} (s : LcState F), s.doc = false → Says line k v → k ≠ "DOCUMENTATION".toList →
      lcLine parse line s = lcStmt parse k v s := by
    intro line k v s hd hs hk
    unfold lcLine
    rw [keyValue_says hs]
    dsimp only
    have : lcDoc k s.doc = false := by rw [hd]; exact lcDoc_out hk
    rw [if_neg (by rw [this]; exact Bool.false_ne_true), doc_false s hd]
  induction h generalizing s with
  | nil => rfl
  | silent h1 _ ih =>
    simp only [List.cons_append, lcLines, lcLine, keyValue_silent h1]
    exact ih s hd
  | comment h1 _ ih =>
    simp only [List.cons_append, lcLines]
    rw [one s hd h1 (by decide)]
    have : ∀ v, lcStmt parse "COMMENT".toList v s = .ok s := fun v => rfl
    rw [this]
    exact ih s hd
  | stmt h1 h2 h3 _ ih =>
    simp only [List.cons_append, lcLines, run]
    rw [one s hd h1 h3]
    cases hs : lcStmt parse _ _ s with
    | error e => rfl
    | ok s' => exact ih s' (by rw [lcStmt_doc hs, hd])
  | @doc first block last lines stmts v v' h1 h2 h3 _ ih =>
    have f1 : lcLine parse first s = .ok { s with doc := true } := by
      unfold lcLine
      rw [keyValue_says h1]
      rfl
    have e : first :: block ++ last :: lines ++ rest = first :: (block ++ (last :: (lines ++ rest))) := by simp
    rw [e]
    simp only [lcLines, f1]
    rw [lcLines_append, docBlock h2 _ rfl]
    dsimp only
    simp only [lcLines, run]
    have f2 : lcLine parse last { s with doc := true } = lcStmt parse "DOCUMENTATION_END".toList v' s := by
      unfold lcLine
      rw [keyValue_says h3]
      show (if lcDoc "DOCUMENTATION_END".toList true = true then _ else _) = _
      rw [if_neg (by decide)]
      exact congrArg _ (doc_false s hd)
    rw [f2]
    cases hs : lcStmt parse _ _ s with
    | error e => rfl
    | ok s' => exact ih s' (by rw [lcStmt_doc hs, hd])

/-! ### Metadata -/

theorem lastValue_append_self (k : Name) (v : LcMeta) (l : List (Name × LcMeta)) : lastValue k (l ++ [(k, v)]) = some v := by
  simp [lastValue, List.filter_append]

theorem lastValue_append_ne {k k' : Name} (h : k' ≠ k) (v : LcMeta) (l : List (Name × LcMeta)) :
    lastValue k (l ++ [(k', v)]) = lastValue k l := by
  simp [lastValue, List.filter_append, h]

theorem info_set {d : Dict Name LcMeta} {g : List (Name × LcMeta)} (h : ∀ k, d.get? k = lastValue k g) (k' : Name) (v : LcMeta) :
    ∀ k, (d.set k' v).get? k = lastValue k (g ++ [(k', v)]) := by
  intro k
  by_cases hk : k' = k
  · subst hk; rw [Dict.get?_set_self, lastValue_append_self]
  · rw [Dict.get?_set_ne _ _ hk, lastValue_append_ne hk, h]

theorem foldl_set_disjoint (l d : Dict Name Name) (hl : l.keys.Nodup) (hd : ∀ k ∈ l.keys, k ∉ d.keys) :
    l.foldl (fun d q => d.set q.1 q.2) d = d ++ l := by
  induction l generalizing d with
  | nil => simp
  | cons q l ih =>
    obtain ⟨k, v⟩ := q
    simp only [Dict.keys_cons, List.nodup_cons, List.mem_cons, forall_eq_or_imp] at hl hd
    have hs : ∀ d : Dict Name Name, k ∉ d.keys → d.set k v = d ++ [(k, v)] := by
      intro d hk
      induction d with
      | nil => rfl
      | cons p d ih =>
        obtain ⟨k', v'⟩ := p
        simp only [Dict.keys_cons, List.mem_cons, not_or] at hk
        simp only [Dict.set, List.cons_append]
        rw [if_neg (Ne.symm hk.1), ih hk.2]
    simp only [List.foldl_cons]
    rw [hs d hd.1, ih _ hl.2, List.append_assoc]; · rfl
    intro j hj
    rw [Dict.keys, List.map_append]
    simp only [List.map_cons, List.map_nil, List.mem_append, List.mem_singleton, not_or]
    exact ⟨hd.2 j hj, fun e => hl.1 (e ▸ hj)⟩

theorem parDict_eq {names vals : List Name} (h : names.Nodup) : lcParDict names vals = names.zip vals := by
  unfold lcParDict
  rw [foldl_set_disjoint _ [] _ (by simp)]
  · rfl
  · refine List.Nodup.sublist ?_ h
    unfold Dict.keys
    induction names generalizing vals with
    | nil => simp
    | cons a names ih =>
      cases vals with
      | nil => simp
      | cons b vals =>
        simp only [List.zip_cons_cons, List.map_cons]
        exact (ih (List.nodup_cons.1 h).2).cons_cons a

/-! ### Columns -/

theorem columnNames_nodup {filters : List Char} (h : filters.Nodup) : (columnNames filters).Nodup := by
  unfold columnNames
  rw [List.nodup_cons]
  constructor
  · intro hm
    rw [List.mem_map] at hm
    obtain ⟨c, _, hc⟩ := hm
    have := congrArg List.length hc
    simp at this
  · exact List.Pairwise.map (fun c : Char => [c]) (fun a b hab e => hab (by injection e)) h

/-- The columns of the table under construction hold these rows. -/
def Cols (names : List Name) (rows : List (Name × List F)) (s : LcState F) : Prop :=
  s.types = some (rows.map (·.1)) ∧ s.cols.keys = names ∧
  ∀ (j : Nat) name, names[j]? = some name → ∃ col, s.cols.get? name = some col ∧ col.map some = rows.map (fun r => r.2[j]?)

theorem reset_spec (names : List Name) (d : Dict Name (List F)) :
    (∀ c, (lcReset names d).get? c = if c ∈ names then some [] else d.get? c) := by
  unfold lcReset
  induction names generalizing d with
  | nil => simp
  | cons n names ih =>
    intro c
    simp only [List.foldl_cons, ih, List.mem_cons]
    by_cases h : c ∈ names
    · simp [h]
    · by_cases hc : c = n
      · subst hc; simp [h, Dict.get?_set_self]
      · simp only [h, hc, or_self, if_false]
        rw [Dict.get?_set_ne _ _ (Ne.symm hc)]

theorem reset_keys {names : List Name} (hn : names.Nodup) (d : Dict Name (List F)) (hd : d.keys = [] ∨ d.keys = names) :
    (lcReset names d).keys = names := by
  unfold lcReset
  rcases hd with hd | hd
  · have hd : d = [] := by cases d with
      | nil => rfl
      | cons _ _ => simp at hd
    subst hd
    have : ∀ (l : List Name) (d : Dict Name (List F)), (d.keys ++ l).Nodup → (l.foldl (fun d c => d.set c []) d).keys = d.keys ++ l := by
      intro l
      induction l with
      | nil => simp
      | cons c l ih =>
        intro d hnd
        have hc : c ∉ d.keys := by
          intro hc
          rw [List.nodup_append] at hnd
          exact hnd.2.2 c hc c (by simp) rfl
        have e : (d.set c []).keys = d.keys ++ [c] := by rw [Dict.keys_set, if_neg hc]
        simp only [List.foldl_cons]
        rw [ih _ (by rw [e]; simpa using hnd), e]; simp
    have := this names [] (by simpa using hn)
    simpa using this
  · have : ∀ (l : List Name) (d : Dict Name (List F)), (∀ c ∈ l, c ∈ d.keys) → (l.foldl (fun d c => d.set c []) d).keys = d.keys := by
      intro l
      induction l with
      | nil => simp
      | cons c l ih =>
        intro d h
        have e : (d.set c []).keys = d.keys := by rw [Dict.keys_set, if_pos (h c (by simp))]
        simp only [List.foldl_cons]
        rw [ih _ (by intro x hx; rw [e]; exact h x (List.mem_cons_of_mem _ hx)), e]
    rw [this _ _ (by rw [hd]; exact fun _ h => h), hd]

theorem append_spec {cs vs : List Name} {xs : List F} {d : Dict Name (List F)} (hn : cs.Nodup) (hp : vs.map parse = xs.map some)
    (hl : xs.length = cs.length) (hc : ∀ c ∈ cs, c ∈ d.keys) :
    ∃ d', lcAppend parse cs vs d = .ok d' ∧ d'.keys = d.keys ∧ (∀ c, c ∉ cs → d'.get? c = d.get? c) ∧
      ∀ (j : Nat) c l, cs[j]? = some c → d.get? c = some l → (d'.get? c).map (List.map some) = some (l.map some ++ [xs[j]?]) := by
  induction cs generalizing vs xs d with
  | nil => exact ⟨d, rfl, rfl, fun _ _ => rfl, fun j c l h => by simp at h⟩
  | cons c cs ih =>
    match xs, vs with
    | [], _ => simp at hl
    | _ :: _, [] => simp at hp
    | x :: xs, v :: vs =>
      simp only [List.map_cons, List.cons.injEq] at hp
      obtain ⟨hp1, hp2⟩ := hp
      rw [List.nodup_cons] at hn
      have hck := hc c (by simp)
      cases hg : d.get? c with
      | none => exact absurd hck ((Dict.get?_eq_none_iff d c).1 hg)
      | some l =>
        have hk : (d.set c (l ++ [x])).keys = d.keys := by rw [Dict.keys_set, if_pos hck]
        obtain ⟨d', h1, h2, h3, h4⟩ := ih (d := d.set c (l ++ [x])) hn.2 hp2 (by simpa using hl)
          (fun y hy => by rw [hk]; exact hc y (List.mem_cons_of_mem _ hy))
        refine ⟨d', ?_, by rw [h2, hk], ?_, ?_⟩
        · simp only [lcAppend, hg, hp1]; exact h1
        · intro y hy
          simp only [List.mem_cons, not_or] at hy
          rw [h3 y hy.2, Dict.get?_set_ne _ _ (Ne.symm hy.1)]
        · intro j y ly hj hy
          cases j with
          | zero =>
            simp only [List.getElem?_cons_zero, Option.some.injEq] at hj
            subst hj
            rw [hg] at hy
            injection hy with hy
            subst hy
            rw [h3 c hn.1, Dict.get?_set_self]
            simp
          | succ j =>
            simp only [List.getElem?_cons_succ] at hj ⊢
            have hyc : c ≠ y := by
              intro e; subst e
              exact hn.1 (List.mem_of_getElem? hj)
            exact h4 j y ly hj (by rw [Dict.get?_set_ne _ _ hyc]; exact hy)

/-- What is known of the state between statements. -/
structure Good (filters : List Char) (names : List Name) (given : List (Name × LcMeta)) (curves : List (LcTable F)) (s : LcState F) : Prop where
  cols : s.colnames = columnNames filters
  pars : s.parnames = names
  curves : s.curves = curves
  doc : s.doc = false
  info : ∀ k, s.info.get? k = lastValue k given
  keys : s.cols.keys = [] ∨ s.cols.keys = columnNames filters

theorem stmt_plain {k v : Name} (hk : k ∉ reserved) (s : LcState F) : lcStmt parse k v s = .ok { s with info := s.info.set k (.str v) } := by
  unfold reserved at hk
  simp only [List.mem_cons, List.not_mem_nil, or_false, not_or] at hk
  obtain ⟨h1, h2, h3, h4, h5, h6, h7, h8, h9, _⟩ := hk
  unfold lcStmt
  rw [if_neg h1, if_neg h2, if_neg h3, if_neg h4, if_neg (by rw [not_or]; exact ⟨h5, h6⟩), if_neg (by rw [not_or]; exact ⟨h7, h8⟩),
    if_neg h9]

theorem run_plain {l : List (Name × Name)} (hl : Plain l) {filters : List Char} {names : List Name} {given : List (Name × LcMeta)}
    {curves : List (LcTable F)} {s : LcState F} (h : Good filters names given curves s) :
    ∃ s', run parse l s = .ok s' ∧ Good filters names (given ++ l.map fun q => (q.1, LcMeta.str q.2)) curves s' ∧ s'.types = s.types ∧ s'.cols = s.cols := by
  induction l generalizing s given with
  | nil => exact ⟨s, rfl, by simpa using h, rfl, rfl⟩
  | cons q l ih =>
    obtain ⟨k, v⟩ := q
    have hk := hl (k, v) (by simp)
    obtain ⟨s', h1, h2, h3, h4⟩ := ih (fun q hq => hl q (List.mem_cons_of_mem _ hq))
      (s := { s with info := s.info.set k (.str v) }) (given := given ++ [(k, .str v)])
      ⟨h.cols, h.pars, h.curves, h.doc, info_set h.info k _, h.keys⟩
    refine ⟨s', ?_, by simpa using h2, h3, h4⟩
    simp only [run, stmt_plain hk]
    exact h1

end LCL.LcLemmas
