/-!
# Small Python substrate

Shared vocabulary for the models: exceptions as values, insertion-ordered dictionaries
(Python `dict`, language reference: iteration order is insertion order and re-assigning an
existing key keeps its place), names as lists of characters, `str.split(".")`.
These definitions model the *language* and cite no file of the repository.
-/

namespace LCL

/-- Python exception classes raised by the modelled code. -/
inductive Err
  | keyError
  | valueError
  | typeError
  | indexError
  | attributeError
  | notImplemented
  | fileNotFound
  | runtimeError
  | overflowError
  | zeroDivision
  | syntaxError
  | nameError
  | unboundLocal
  | osError
  | assertionError
  | recursion      -- used only for an exhausted fuel argument
deriving DecidableEq, Repr

/-- A Python `str`, as the list of its characters. -/
abbrev Name := List Char

/-- A Python `dict`: association list in insertion order. -/
abbrev Dict (κ ν : Type _) := List (κ × ν)

namespace Dict
variable {κ ν : Type _} [DecidableEq κ]

/-- `d.get(k)` (first match; a well-formed dictionary has one). -/
def get? : Dict κ ν → κ → Option ν
  | [], _ => none
  | (k', v) :: d, k => if k' = k then some v else get? d k

/-- `d[k] = v`: replace in place or append. -/
def set : Dict κ ν → κ → ν → Dict κ ν
  | [], k, v => [(k, v)]
  | (k', v') :: d, k, v => if k' = k then (k', v) :: d else (k', v') :: set d k v

/-- `del d[k]` (no error modelled: callers check membership first). -/
def erase : Dict κ ν → κ → Dict κ ν
  | [], _ => []
  | (k', v) :: d, k => if k' = k then d else (k', v) :: erase d k

/-- `list(d)`. -/
def keys (d : Dict κ ν) : List κ := d.map (·.1)

/-- `list(d.values())`. -/
def values (d : Dict κ ν) : List ν := d.map (·.2)

/-- `k in d`. -/
def has (d : Dict κ ν) (k : κ) : Bool := (d.get? k).isSome

omit [DecidableEq κ] in
@[simp] theorem keys_nil : keys ([] : Dict κ ν) = [] := rfl
omit [DecidableEq κ] in
@[simp] theorem keys_cons (p : κ × ν) (d : Dict κ ν) : keys (p :: d) = p.1 :: keys d := rfl

@[simp] theorem get?_nil (k : κ) : get? ([] : Dict κ ν) k = none := rfl

theorem get?_cons (k' : κ) (v : ν) (d : Dict κ ν) (k : κ) :
    get? ((k', v) :: d) k = if k' = k then some v else get? d k := rfl

theorem get?_set (d : Dict κ ν) (k j : κ) (v : ν) :
    (d.set k v).get? j = if k = j then some v else d.get? j := by
  induction d with
  | nil => simp [set, get?_cons]
  | cons p d ih =>
    obtain ⟨k', v'⟩ := p
    by_cases h : k' = k
    · subst h
      by_cases hj : k' = j <;> simp [set, get?_cons, hj]
    · by_cases hj : k' = j
      · subst hj
        have : k ≠ k' := fun e => h e.symm
        simp [set, get?_cons, h, this]
      · simp [set, get?_cons, h, hj, ih]

@[simp] theorem get?_set_self (d : Dict κ ν) (k : κ) (v : ν) : (d.set k v).get? k = some v := by
  simp [get?_set]

theorem get?_set_ne (d : Dict κ ν) {k j : κ} (v : ν) (h : k ≠ j) :
    (d.set k v).get? j = d.get? j := by simp [get?_set, h]

theorem get?_eq_none_iff (d : Dict κ ν) (k : κ) : d.get? k = none ↔ k ∉ d.keys := by
  induction d with
  | nil => simp
  | cons p d ih =>
    obtain ⟨k', v⟩ := p
    by_cases h : k' = k
    · simp [get?_cons, h]
    · have : k ≠ k' := fun e => h e.symm
      simp [get?_cons, h, ih, this]

theorem has_iff (d : Dict κ ν) (k : κ) : d.has k = true ↔ k ∈ d.keys := by
  unfold has
  have := get?_eq_none_iff d k
  cases h : d.get? k with
  | none => simp [h] at this; simp [this]
  | some v =>
    simp only [Option.isSome_some, true_iff]
    by_cases hk : k ∈ d.keys
    · exact hk
    · rw [← this] at hk; rw [h] at hk; cases hk

theorem has_eq_false_iff (d : Dict κ ν) (k : κ) : d.has k = false ↔ k ∉ d.keys := by
  rw [← has_iff]; simp

theorem mem_of_get? {d : Dict κ ν} {k : κ} {v : ν} (h : d.get? k = some v) : (k, v) ∈ d := by
  induction d with
  | nil => simp at h
  | cons p d ih =>
    obtain ⟨k', v'⟩ := p
    by_cases hk : k' = k
    · simp [get?_cons, hk] at h; subst hk; simp [h]
    · simp [get?_cons, hk] at h; exact List.mem_cons_of_mem _ (ih h)

theorem get?_of_mem {d : Dict κ ν} (hd : d.keys.Nodup) {k : κ} {v : ν} (h : (k, v) ∈ d) :
    d.get? k = some v := by
  induction d with
  | nil => simp at h
  | cons p d ih =>
    obtain ⟨k', v'⟩ := p
    simp only [keys_cons, List.nodup_cons] at hd
    rcases List.mem_cons.1 h with h | h
    · cases h; simp [get?_cons]
    · have : k ∈ keys d := List.mem_map.2 ⟨(k, v), h, rfl⟩
      have hne : k' ≠ k := fun e => hd.1 (e ▸ this)
      simp [get?_cons, hne, ih hd.2 h]

theorem get?_iff_mem {d : Dict κ ν} (hd : d.keys.Nodup) {k : κ} {v : ν} :
    d.get? k = some v ↔ (k, v) ∈ d := ⟨mem_of_get?, get?_of_mem hd⟩

theorem keys_set (d : Dict κ ν) (k : κ) (v : ν) :
    (d.set k v).keys = if k ∈ d.keys then d.keys else d.keys ++ [k] := by
  induction d with
  | nil => simp [set]
  | cons p d ih =>
    obtain ⟨k', v'⟩ := p
    by_cases h : k' = k
    · simp [set, h]
    · have : k ≠ k' := fun e => h e.symm
      simp only [set, h, if_false, keys_cons, ih, List.mem_cons, this, false_or]
      split <;> simp

theorem mem_keys_set (d : Dict κ ν) (k j : κ) (v : ν) :
    j ∈ (d.set k v).keys ↔ j = k ∨ j ∈ d.keys := by
  rw [keys_set]; split
  · constructor
    · exact Or.inr
    · rintro (rfl | h)
      · assumption
      · exact h
  · simp [or_comm]

theorem nodup_set {d : Dict κ ν} (hd : d.keys.Nodup) (k : κ) (v : ν) : (d.set k v).keys.Nodup := by
  rw [keys_set]; split
  · exact hd
  · rename_i h
    rw [List.nodup_append]
    exact ⟨hd, by simp, by intro a ha b hb; simp at hb; subst hb; exact fun e => h (e ▸ ha)⟩

theorem get?_erase_self {d : Dict κ ν} (hd : d.keys.Nodup) (k : κ) : (d.erase k).get? k = none := by
  induction d with
  | nil => rfl
  | cons p d ih =>
    obtain ⟨k', v⟩ := p
    simp only [keys_cons, List.nodup_cons] at hd
    by_cases h : k' = k
    · subst h; simp [erase, get?_eq_none_iff, hd.1]
    · simp [erase, h, get?_cons, ih hd.2]

theorem get?_erase_ne (d : Dict κ ν) {k j : κ} (h : k ≠ j) : (d.erase k).get? j = d.get? j := by
  induction d with
  | nil => rfl
  | cons p d ih =>
    obtain ⟨k', v⟩ := p
    by_cases hk : k' = k
    · subst hk; simp [erase, get?_cons, h]
    · by_cases hj : k' = j
      · subst hj; simp [erase, hk, get?_cons]
      · simp [erase, hk, get?_cons, hj, ih]

theorem nodup_erase {d : Dict κ ν} (hd : d.keys.Nodup) (k : κ) : (d.erase k).keys.Nodup := by
  have sub : (d.erase k).keys.Sublist d.keys := by
    clear hd
    induction d with
    | nil => simp [erase]
    | cons p d ih =>
      obtain ⟨k', v⟩ := p
      by_cases hk : k' = k
      · simp [erase, hk]
      · simp only [erase, hk, if_false, keys_cons]; exact ih.cons_cons _
  exact hd.sublist sub

theorem length_set (d : Dict κ ν) (k : κ) (v : ν) :
    (d.set k v).length = if k ∈ d.keys then d.length else d.length + 1 := by
  have h1 : ∀ e : Dict κ ν, e.keys.length = e.length := fun e => by simp [keys]
  rw [← h1 (d.set k v), keys_set, ← h1 d]; split <;> simp

end Dict

/-- `"." in s`. -/
def hasDot (s : Name) : Bool := s.contains '.'

/-- `s.split(".")`: always at least one piece. -/
def splitDot : Name → List Name
  | [] => [[]]
  | c :: s =>
    if c = '.' then [] :: splitDot s
    else match splitDot s with
      | [] => [[c]]          -- unreachable, `splitDot` is never empty
      | t :: ts => (c :: t) :: ts

theorem hasDot_cons (c : Char) (s : Name) : hasDot (c :: s) = (c == '.' || hasDot s) := by
  simp only [hasDot, List.contains_cons]
  congr 1
  rw [Bool.eq_iff_iff]; simp only [beq_iff_eq]; exact eq_comm

theorem splitDot_nodot {s : Name} (h : hasDot s = false) : splitDot s = [s] := by
  induction s with
  | nil => rfl
  | cons c s ih =>
    rw [hasDot_cons, Bool.or_eq_false_iff] at h
    have hc : c ≠ '.' := by simpa using h.1
    simp [splitDot, hc, ih h.2]

/-- Joining two dot-free names with "." splits back to exactly these two names. -/
theorem splitDot_join {a b : Name} (ha : hasDot a = false) (hb : hasDot b = false) :
    splitDot (a ++ '.' :: b) = [a, b] := by
  induction a with
  | nil => simp [splitDot, splitDot_nodot hb]
  | cons c a ih =>
    rw [hasDot_cons, Bool.or_eq_false_iff] at ha
    have hc : c ≠ '.' := by simpa using ha.1
    simp [splitDot, hc, ih ha.2]

theorem hasDot_join (a b : Name) : hasDot (a ++ '.' :: b) = true := by
  simp [hasDot]

theorem splitDot_two {s a b : Name} (h : splitDot s = [a, b]) :
    s = a ++ '.' :: b ∧ hasDot a = false ∧ hasDot b = false := by
  induction s generalizing a b with
  | nil => simp [splitDot] at h
  | cons c s ih =>
    by_cases hc : c = '.'
    · subst hc
      simp only [splitDot, if_true, List.cons.injEq] at h
      obtain ⟨rfl, h⟩ := h
      have hb : hasDot s = false ∧ s = b := by
        clear ih
        induction s generalizing b with
        | nil => simp [splitDot] at h; simp [hasDot, h]
        | cons c s ih2 =>
          by_cases hc : c = '.'
          · subst hc; simp only [splitDot, if_true, List.cons.injEq] at h
            exact absurd h.2 (by cases s with
              | nil => simp [splitDot]
              | cons c s => simp only [splitDot]; split <;> (try split) <;> simp)
          · simp only [splitDot, hc, if_false] at h
            split at h
            · rename_i h0; simp only [List.cons.injEq] at h
              exact absurd h0 (by cases s with
                | nil => simp [splitDot]
                | cons c s => simp only [splitDot]; split <;> (try split) <;> simp)
            · rename_i t ts h0
              simp only [List.cons.injEq] at h
              obtain ⟨rfl, rfl⟩ := h
              obtain ⟨h1, h2⟩ := ih2 h0
              subst h2
              rw [hasDot_cons]; simp [hc, h1]
      obtain ⟨hb, rfl⟩ := hb
      exact ⟨rfl, rfl, hb⟩
    · simp only [splitDot, hc, if_false] at h
      split at h
      · simp at h
      · rename_i t ts h0
        simp only [List.cons.injEq] at h
        obtain ⟨rfl, rfl⟩ := h
        obtain ⟨rfl, h1, h2⟩ := ih h0
        exact ⟨rfl, by rw [hasDot_cons]; simp [hc, h1], h2⟩

end LCL
