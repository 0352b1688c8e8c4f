import Verif.Model.Physical

/-! # Lemmas on masks: `gather`, `scatter` -/

namespace LCL.PhysLemmas
open LCL
variable {K : Type} [Field K] [LinearOrder K]

@[simp] theorem gather_nil {β : Type} (m : List Bool) : gather m ([] : List β) = [] := by simp [gather]
@[simp] theorem gather_nil' {β : Type} (a : List β) : gather [] a = [] := by simp [gather]
@[simp] theorem gather_true {β : Type} (m : List Bool) (x : β) (a : List β) :
    gather (true :: m) (x :: a) = x :: gather m a := by simp [gather]
@[simp] theorem gather_false {β : Type} (m : List Bool) (x : β) (a : List β) :
    gather (false :: m) (x :: a) = gather m a := by simp [gather]

theorem gather_map {β : Type} (p : β → Bool) (a : List β) : gather (a.map p) a = a.filter p := by
  induction a with
  | nil => simp
  | cons x a ih => cases h : p x <;> simp [h, ih]

theorem gather_length {β : Type} : ∀ (m : List Bool) (a : List β), m.length = a.length →
    (gather m a).length = m.count true
  | [], _, _ => by simp
  | b :: m, [], h => by simp at h
  | true :: m, x :: a, h => by simp [gather_length m a (by simpa using h)]
  | false :: m, x :: a, h => by simp [gather_length m a (by simpa using h)]

omit [Field K] [LinearOrder K] in
@[simp] theorem scatter_length : ∀ (m : List Bool) (d v : List K), (scatter m d v).length = d.length
  | [], d, v => by cases d <;> simp [scatter]
  | true :: m, [], v => by simp [scatter]
  | false :: m, [], v => by simp [scatter]
  | true :: m, x :: d, [] => by simp [scatter, scatter_length m d []]
  | true :: m, x :: d, v :: vs => by simp [scatter, scatter_length m d vs]
  | false :: m, x :: d, vs => by simp [scatter, scatter_length m d vs]

omit [Field K] [LinearOrder K] in
/-- Reading back what was written. -/
theorem gather_scatter : ∀ (m : List Bool) (d v : List K), m.length = d.length → v.length = m.count true →
    gather m (scatter m d v) = v
  | [], d, v, _, hv => by
    have : v = [] := List.length_eq_zero_iff.1 (by simpa using hv)
    simp [this]
  | b :: m, [], v, h, _ => by simp at h
  | true :: m, x :: d, [], _, hv => by simp at hv
  | true :: m, x :: d, v :: vs, h, hv => by
    simp only [scatter, gather_true]
    rw [gather_scatter m d vs (by simpa using h) (by simpa using hv)]
  | false :: m, x :: d, vs, h, hv => by
    simp only [scatter, gather_false]
    exact gather_scatter m d vs (by simpa using h) (by simpa using hv)

omit [Field K] [LinearOrder K] in
/-- A disjoint mask does not see the write. -/
theorem gather_scatter_other : ∀ (m m' : List Bool) (d v : List K), m.length = m'.length →
    (∀ p ∈ m.zip m', ¬ (p.1 = true ∧ p.2 = true)) → gather m' (scatter m d v) = gather m' d
  | [], [], d, v, _, _ => by simp
  | [], _ :: _, d, v, h, _ => by simp at h
  | _ :: _, [], d, v, h, _ => by simp at h
  | b :: m, b' :: m', [], v, _, _ => by simp [scatter]
  | true :: m, true :: m', x :: d, v, _, hd => by simp at hd
  | true :: m, false :: m', x :: d, [], h, hd => by
    simp only [scatter, gather_false]
    exact gather_scatter_other m m' d [] (by simpa using h) (fun p hp => hd p (by simp [hp]))
  | true :: m, false :: m', x :: d, v :: vs, h, hd => by
    simp only [scatter, gather_false]
    exact gather_scatter_other m m' d vs (by simpa using h) (fun p hp => hd p (by simp [hp]))
  | false :: m, true :: m', x :: d, vs, h, hd => by
    simp only [scatter, gather_true]
    rw [gather_scatter_other m m' d vs (by simpa using h) (fun p hp => hd p (by simp [hp]))]
  | false :: m, false :: m', x :: d, vs, h, hd => by
    simp only [scatter, gather_false]
    exact gather_scatter_other m m' d vs (by simpa using h) (fun p hp => hd p (by simp [hp]))

omit [Field K] [LinearOrder K] in
/-- Scattering a function of the selected entries. -/
theorem scatter_map {β : Type} (p : β → Bool) (f g : β → K) (a : List β) :
    scatter (a.map p) (a.map f) ((a.filter p).map g) = a.map fun w => if p w then g w else f w := by
  induction a with
  | nil => simp [scatter]
  | cons x a ih => cases h : p x <;> simp [scatter, h, ih]

omit [Field K] [LinearOrder K] in
theorem count_map_true {β : Type} (p : β → Bool) (a : List β) : (a.map p).count true = (a.filter p).length := by
  induction a with
  | nil => simp
  | cons x a ih => cases h : p x <;> simp [h, ih]

theorem foldl_min_spec (l : List K) (x : K) : (l.foldl min x = x ∨ l.foldl min x ∈ l) ∧
    l.foldl min x ≤ x ∧ ∀ y ∈ l, l.foldl min x ≤ y := by
  induction l generalizing x with
  | nil => simp
  | cons y l ih =>
    obtain ⟨h1, h2, h3⟩ := ih (min x y)
    rw [List.foldl_cons]
    refine ⟨?_, h2.trans (min_le_left _ _), ?_⟩
    · rcases h1 with h | h
      · rw [h]
        rcases min_choice x y with h' | h' <;> rw [h']
        · exact Or.inl rfl
        · exact Or.inr (by simp)
      · exact Or.inr (List.mem_cons_of_mem _ h)
    · intro z hz
      rcases List.mem_cons.1 hz with rfl | hz
      · exact h2.trans (min_le_right _ _)
      · exact h3 z hz

theorem foldl_max_spec (l : List K) (x : K) : (l.foldl max x = x ∨ l.foldl max x ∈ l) ∧
    x ≤ l.foldl max x ∧ ∀ y ∈ l, y ≤ l.foldl max x := by
  induction l generalizing x with
  | nil => simp
  | cons y l ih =>
    obtain ⟨h1, h2, h3⟩ := ih (max x y)
    rw [List.foldl_cons]
    refine ⟨?_, (le_max_left _ _).trans h2, ?_⟩
    · rcases h1 with h | h
      · rw [h]
        rcases max_choice x y with h' | h' <;> rw [h']
        · exact Or.inl rfl
        · exact Or.inr (by simp)
      · exact Or.inr (List.mem_cons_of_mem _ h)
    · intro z hz
      rcases List.mem_cons.1 hz with rfl | hz
      · exact (le_max_right _ _).trans h2
      · exact h3 z hz

theorem npMin_spec {l : List K} {m : K} (h : npMin l = some m) : m ∈ l ∧ ∀ y ∈ l, m ≤ y := by
  cases l with
  | nil => simp [npMin] at h
  | cons x l =>
    simp only [npMin, Option.some.injEq] at h
    subst h
    obtain ⟨h1, h2, h3⟩ := foldl_min_spec l x
    refine ⟨?_, ?_⟩
    · rcases h1 with h | h
      · rw [h]; simp
      · exact List.mem_cons_of_mem _ h
    · intro y hy
      rcases List.mem_cons.1 hy with rfl | hy
      · exact h2
      · exact h3 y hy

theorem npMax_spec {l : List K} {m : K} (h : npMax l = some m) : m ∈ l ∧ ∀ y ∈ l, y ≤ m := by
  cases l with
  | nil => simp [npMax] at h
  | cons x l =>
    simp only [npMax, Option.some.injEq] at h
    subst h
    obtain ⟨h1, h2, h3⟩ := foldl_max_spec l x
    refine ⟨?_, ?_⟩
    · rcases h1 with h | h
      · rw [h]; simp
      · exact List.mem_cons_of_mem _ h
    · intro y hy
      rcases List.mem_cons.1 hy with rfl | hy
      · exact h2
      · exact h3 y hy

theorem npMin_none {l : List K} (h : npMin l = none) : l = [] := by
  cases l with
  | nil => rfl
  | cons x l => simp [npMin] at h

theorem npMax_none {l : List K} (h : npMax l = none) : l = [] := by
  cases l with
  | nil => rfl
  | cons x l => simp [npMax] at h

end LCL.PhysLemmas
