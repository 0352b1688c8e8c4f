import Verif.Model.RandomNodes
import Mathlib.Tactic.Linarith
import Mathlib.Tactic.NormNum

/-!
# Properties C86-C88: random function nodes
-/

namespace LCL.RandomProps
open LCL LCL.RandomNodes
variable {ρ U : Type}

/-! ## C86: numpy random functions -/

theorem bshapes_one (n : Nat) (params : List (Name × (Nat → ℝ))) (hn : n = 1) :
    bshapes (params.map fun p => (argOf n p.2).shape) = some [] := by
  induction params with
  | nil => rfl
  | cons p l ih =>
    rw [List.map_cons, bshapes, ih]
    unfold argOf
    rw [if_pos hn]
    rfl

theorem bshapes_many (n : Nat) (params : List (Name × (Nat → ℝ))) (hn : n ≠ 1) :
    bshapes (params.map fun p => (argOf n p.2).shape) = some (if params = [] then [] else [n]) := by
  induction params with
  | nil => rfl
  | cons p l ih =>
    rw [List.map_cons, bshapes, ih]
    have : (argOf n p.2).shape = [n] := by unfold argOf; rw [if_neg hn]
    dsimp only
    rw [this]
    by_cases hl : l = []
    · rw [if_pos hl]; rfl
    · rw [if_neg hl]; simp [NArr.bshape]

/-- C86. Without a size every sample gets its own number, computed from its own draw and from its own values of the parameters: one
sample gives a number (no axes), several give an array with one axis. -/
theorem C86_scalar (G : RStream ρ U) (dist : List (Name × ℝ) → U → ℝ) (params : List (Name × (Nat → ℝ))) (n : Nat) (own g : ρ) :
    ∃ a, npCompute G dist [] params n own (some g) = .ok (own, some (G.adv g n), a) ∧
      npCompute G dist [] params n g none = .ok (G.adv g n, none, a) ∧
      a.shape = (if n = 1 then [] else [n]) ∧
      ∀ i, i < n → a.get (if n = 1 then [] else [i]) = dist (params.map fun p => (p.1, p.2 i)) (G.val g i) := by
  by_cases hn : n = 1
  · subst hn
    have hb : bshapes (List.map ((fun a => a.2.shape) ∘ fun p => (p.1, argOf 1 p.2)) params) = some [] := by
      exact bshapes_one 1 params rfl
    refine ⟨⟨[], fun i => dist ((params.map fun p => (p.1, argOf 1 p.2)).map fun a => (a.1, a.2.get (NArr.bidx a.2.shape i))) (G.val g (flat [] i))⟩, ?_, ?_, rfl, ?_⟩
    · simp [npCompute, npCall, hb, sizeParam, size]
    · simp [npCompute, npCall, hb, sizeParam, size]
    · intro i hi
      have : i = 0 := by omega
      subst this
      dsimp only
      rw [List.map_map]
      rfl
  · have hb : bshapes (List.map ((fun a => a.2.shape) ∘ fun p => (p.1, argOf n p.2)) params) = some (if params = [] then [] else [n]) := by
      exact bshapes_many n params hn
    have hfit : NArr.bshape [n] (if params = [] then [] else [n]) = some [n] := by
      split <;> simp [NArr.bshape]
    refine ⟨⟨[n], fun i => dist ((params.map fun p => (p.1, argOf n p.2)).map fun a => (a.1, a.2.get (NArr.bidx a.2.shape i))) (G.val g (flat [n] i))⟩, ?_, ?_, ?_, ?_⟩
    · simp [npCompute, npCall, hb, sizeParam, size, hn, hfit]
    · simp [npCompute, npCall, hb, sizeParam, size, hn, hfit]
    · rw [if_neg hn]
    · intro i hi
      rw [if_neg hn]
      dsimp only
      rw [List.map_map]
      have hfl : flat [n] [i] = i := by simp [flat]
      rw [hfl]
      congr 1
      apply List.map_congr_left
      intro p _
      dsimp only [Function.comp]
      unfold argOf
      rw [if_neg hn]
      simp [NArr.bidx, hn]

/-- the shape `dims` (last axis first) of a result holds the index -/
def InShape : List Nat → List Nat → Prop
  | [], [] => True
  | c :: cs, i :: is => i < c ∧ InShape cs is
  | _, _ => False

/-- different entries of an array have different draws -/
theorem C86_draws_distinct : ∀ (shape i j : List Nat), InShape shape i → InShape shape j → flat shape i = flat shape j → i = j
  | [], [], [], _, _, _ => rfl
  | c :: cs, i :: is, j :: js, ⟨hi, his⟩, ⟨hj, hjs⟩, h => by
    rw [flat, flat] at h
    have h1 : i = j := by
      have := congrArg (· % c) h
      simpa [Nat.add_mul_mod_self_left, Nat.mod_eq_of_lt hi, Nat.mod_eq_of_lt hj] using this
    subst h1
    have hc : 0 < c := by omega
    have h2 : flat cs is = flat cs js := by
      have := Nat.add_left_cancel h
      exact Nat.eq_of_mul_eq_mul_left hc this
    rw [C86_draws_distinct cs is js his hjs h2]

/-- all draws of an array lie before the position the generator is left at -/
theorem C86_draws_before : ∀ (shape i : List Nat), InShape shape i → flat shape i < size shape
  | [], [], _ => by simp [flat, size]
  | c :: cs, i :: is, ⟨hi, his⟩ => by
    have ih := C86_draws_before cs is his
    rw [flat, size, List.foldr_cons]
    have : c * flat cs is + c ≤ c * size cs := by
      have : flat cs is + 1 ≤ size cs := ih
      calc c * flat cs is + c = c * (flat cs is + 1) := by ring
        _ ≤ _ := Nat.mul_le_mul_left c this
    unfold size at this
    omega

/-- C86, with a size: if the function needs no parameters, or for one sample, the result has an axis for the samples followed by
the axes of the size; every entry has its own draw. What is missing: with parameters and several samples the code hands numpy
arrays with one value for each sample, which numpy lines up with the last axis (`C86_size_counterexample`). -/
theorem C86_array_partial (G : RStream ρ U) (dist : List (Name × ℝ) → U → ℝ) (sampleSize : List Nat) (params : List (Name × (Nat → ℝ)))
    (hs : sampleSize ≠ []) (n : Nat) (h : params = [] ∨ n = 1) (own g : ρ) :
    ∃ a, npCompute G dist sampleSize params n own (some g) = .ok (own, some (G.adv g (size a.shape)), a) ∧
      a.shape = (n :: sampleSize).reverse ∧
      ∀ idx, a.get idx = dist (params.map fun p => (p.1, p.2 0)) (G.val g (flat a.shape idx)) := by
  have hb : bshapes (List.map ((fun a => a.2.shape) ∘ fun p => (p.1, argOf n p.2)) params) = some [] := by
    rcases h with rfl | h
    · rfl
    · exact bshapes_one n params h
  have hfit : NArr.bshape (sampleSize.reverse ++ [n]) [] = some (sampleSize.reverse ++ [n]) := by
    cases sampleSize.reverse ++ [n] <;> rfl
  refine ⟨⟨sampleSize.reverse ++ [n], fun i => dist ((params.map fun p => (p.1, argOf n p.2)).map fun a => (a.1, a.2.get (NArr.bidx a.2.shape i)))
    (G.val g (flat (sampleSize.reverse ++ [n]) i))⟩, ?_, ?_, ?_⟩
  · simp [npCompute, npCall, hb, sizeParam, hs, hfit]
  · simp
  · intro idx
    dsimp only
    rw [List.map_map]
    congr 1
    apply List.map_congr_left
    intro p hp
    dsimp only [Function.comp]
    rcases h with rfl | rfl
    · cases hp
    · rfl

/-- C86 fails: with a parameter, several samples and a vector of `k` numbers for each sample, the call is rejected unless `k` is the
number of samples; then the `j`-th number of every sample is drawn with the parameters of sample `j`. -/
theorem C86_size_counterexample (G : RStream ρ U) (dist : List (Name × ℝ) → U → ℝ) (params : List (Name × (Nat → ℝ))) (hp : params ≠ [])
    (n k : Nat) (hn : n ≠ 1) (own g : ρ) :
    (k ≠ n → npCompute G dist [k] params n own (some g) = .error .valueError) ∧
    ∃ a, npCompute G dist [n] params n own (some g) = .ok (own, some (G.adv g (n * n)), a) ∧
      ∀ i j, a.get [j, i] = dist (params.map fun p => (p.1, p.2 j)) (G.val g (j + n * i)) := by
  have hb : bshapes (List.map ((fun a => a.2.shape) ∘ fun p => (p.1, argOf n p.2)) params) = some [n] := by
    have := bshapes_many n params hn
    rw [if_neg hp] at this
    exact this
  constructor
  · intro hk
    have : NArr.bshape [k, n] [n] ≠ some [k, n] := by
      unfold NArr.bshape
      simp [NArr.bshape, hk, hn]
      by_cases h1 : k = 1
      · simp [h1]; omega
      · simp [h1]
    simp [npCompute, npCall, hb, sizeParam, this]
  · have hfit : NArr.bshape [n, n] [n] = some [n, n] := by simp [NArr.bshape]
    refine ⟨⟨[n, n], fun i => dist ((params.map fun p => (p.1, argOf n p.2)).map fun a => (a.1, a.2.get (NArr.bidx a.2.shape i)))
      (G.val g (flat [n, n] i))⟩, ?_, ?_⟩
    · simp [npCompute, npCall, hb, sizeParam, hfit, size]
    · intro i j
      dsimp only
      rw [List.map_map]
      congr 1
      · apply List.map_congr_left
        intro p _
        dsimp only [Function.comp]
        unfold argOf
        rw [if_neg hn]
        simp [NArr.bidx, hn]

/-- C86. The constructor: `choice`, unknown functions and sizes with an axis that is not positive are rejected; a size of one (or none)
means a number for each sample. -/
theorem C86_init (func : Name) (known : Name → Bool) :
    (∀ sz, npInit "choice".toList known sz = .error .valueError) ∧
    (∀ sz, known func = false → npInit func known sz = .error .valueError) ∧
    (func ≠ "choice".toList → known func = true → npInit func known .none = .ok [] ∧ npInit func known (.int 1) = .ok [] ∧
      (∀ k : Int, k ≤ 0 → npInit func known (.int k) = .error .valueError) ∧
      (∀ k : Nat, 2 ≤ k → npInit func known (.int k) = .ok [k]) ∧
      (∀ l : List Nat, (∀ k ∈ l, 0 < k) → npInit func known (.tuple (l.map fun (k : Nat) => (k : Int))) = .ok l) ∧
      (∀ l : List Int, (∃ k ∈ l, k ≤ 0) → npInit func known (.tuple l) = .error .valueError)) := by
  refine ⟨?_, ?_, ?_⟩
  · intro sz
    unfold npInit
    rw [if_pos rfl]
  · intro sz hk
    unfold npInit
    split
    · rfl
    · dsimp only
      split
      · rename_i e h
        cases sz with
        | none => cases h
        | int k =>
          dsimp only at h
          split at h
          · cases h
          · split at h
            · injection h with h; rw [← h]
            · cases h
        | tuple l =>
          dsimp only at h
          split at h
          · injection h with h; rw [← h]
          · cases h
      · rw [hk]; rfl
  · intro hc hk
    unfold npInit
    simp only [if_neg hc, hk, if_true]
    refine ⟨trivial, trivial, ?_, ?_, ?_, ?_⟩
    · intro k hle
      rw [if_neg (by omega), if_pos hle]
    · intro k h2
      rw [if_neg (by omega), if_neg (by omega)]
      simp
    · intro l hl
      rw [if_neg]
      · simp [Function.comp_def]
      · simp only [List.any_eq_true, decide_eq_true_eq, List.mem_map, not_exists, not_and]
        rintro x ⟨k, hkm, rfl⟩
        have := hl k hkm
        omega
    · rintro l ⟨k, hkm, hle⟩
      rw [if_pos]
      rw [List.any_eq_true]
      exact ⟨k, hkm, by simpa using hle⟩

/-! ## C87: a caller's generator -/

/-- The value of an output for sample `i`. -/
def Out.at : Out → Nat → Option ℝ
  | .one x, 0 => some x
  | .one _, _ => none
  | .many l, i => l[i]?

/-- C87, what holds: given a generator, the numpy and scipy nodes and the host mass node draw from it alone (the result does not
depend on the node's own generator, which is left as it was); without one they use and advance their own, with the same result for the
same generator state. What is missing: the bilby node (`C87_bilby_counterexample`) and the others that draw from a global generator. -/
theorem C87_honoured_partial (G : RStream ρ U) (dist inv : List (Name × ℝ) → U → ℝ) (ge lt : U → ℝ) (sampleSize : List Nat)
    (params : List (Name × (Nat → ℝ))) (mass : Nat → ℝ) (n : Nat) (own own' g : ρ) :
    (∀ a g', npCompute G dist sampleSize params n own (some g) = .ok (own, g', a) →
      npCompute G dist sampleSize params n own' (some g) = .ok (own', g', a) ∧ ∃ g1, npCompute G dist sampleSize params n g none = .ok (g1, none, a)) ∧
    ((invPolyCompute G inv params n own (some g)).1 = own ∧
      (invPolyCompute G inv params n own (some g)).2 = (invPolyCompute G inv params n own' (some g)).2 ∧
      (invPolyCompute G inv params n g none).2.2 = (invPolyCompute G inv params n own (some g)).2.2) ∧
    ((hostmassCompute G ge lt mass n own (some g)).1 = own ∧
      (hostmassCompute G ge lt mass n own (some g)).2 = (hostmassCompute G ge lt mass n own' (some g)).2 ∧
      (hostmassCompute G ge lt mass n g none).2.2 = (hostmassCompute G ge lt mass n own (some g)).2.2) := by
  refine ⟨?_, ⟨rfl, rfl, rfl⟩, ⟨rfl, rfl, rfl⟩⟩
  intro a g' h
  unfold npCompute at *
  dsimp only at *
  cases hc : npCall G dist (params.map fun p => (p.1, argOf n p.2)) (sizeParam n sampleSize) g with
  | error e => rw [hc] at h; cases h
  | ok r =>
    rw [hc] at h
    injection h with h
    injection h with _ h
    injection h with h1 h2
    subst h1
    subst h2
    exact ⟨rfl, _, rfl⟩

/-- C87 fails for bilby priors: the result does not depend on the caller's generator at all, and it changes with the state of the
global generator: for any prior whose draws can differ, and any caller's generator, there are two global states with different results. -/
theorem C87_bilby_counterexample (G : RStream ρ U) (name : Name) (f : U → ℝ) (n : Nat) (hn : 0 < n) (a b : ρ) (hab : f (G.val a 0) ≠ f (G.val b 0)) :
    (∀ (glob : ρ) (g g' : Option ρ) prior, (bilbyCompute G prior n glob g).2.2 = (bilbyCompute G prior n glob g').2.2) ∧
    ∀ g : ρ, (bilbyCompute G [(name, f)] n a (some g)).2.2 ≠ (bilbyCompute G [(name, f)] n b (some g)).2.2 := by
  refine ⟨fun _ _ _ _ => rfl, ?_⟩
  intro g h
  unfold bilbyCompute at h
  simp only [List.mapIdx_cons, List.mapIdx_nil, List.cons.injEq, Prod.mk.injEq, true_and, and_true] at h
  split at h
  · injection h with h
    exact hab h
  · injection h with h
    obtain ⟨m, rfl⟩ : ∃ m, n = m + 1 := ⟨n - 1, by omega⟩
    rw [List.range_succ_eq_map, List.map_cons, List.map_cons] at h
    injection h with h _
    simp at h
    exact hab h

/-! ## C88: one distribution for each sample -/

/-- C88 for bilby priors: parameter `k` of sample `i` is its own prior's transform of a draw of its own: no draw serves twice, and the global generator ends
after exactly the draws that were used. -/
theorem C88_bilby (G : RStream ρ U) (prior : List (Name × (U → ℝ))) (n : Nat) (hn : 0 < n) (glob : ρ) (info : Option ρ) :
    ∃ d : Nat → Nat → Nat, (∀ k i, k < prior.length → i < n → d k i < prior.length * n) ∧
      (∀ k i k' i', i < n → i' < n → d k i = d k' i' → k = k' ∧ i = i') ∧
      (bilbyCompute G prior n glob info).1 = G.adv glob (prior.length * n) ∧ (bilbyCompute G prior n glob info).2.2.length = prior.length ∧
      ∀ (k i : Nat) p, prior[k]? = some p → i < n → ∃ o, (bilbyCompute G prior n glob info).2.2[k]? = some (p.1, o) ∧ Out.at o i = some (p.2 (G.val glob (d k i))) := by
  refine ⟨fun k i => k * n + i, ?_, ?_, rfl, by simp [bilbyCompute], ?_⟩
  · intro k i hk hi
    calc k * n + i < k * n + n := by omega
      _ = (k + 1) * n := by ring
      _ ≤ prior.length * n := Nat.mul_le_mul_right _ hk
  · intro k i k' i' hi hi' h
    have h1 : (k * n + i) / n = k := by rw [Nat.mul_comm, Nat.mul_add_div hn, Nat.div_eq_of_lt hi]; rfl
    have h2 : (k' * n + i') / n = k' := by rw [Nat.mul_comm, Nat.mul_add_div hn, Nat.div_eq_of_lt hi']; rfl
    have e : k = k' := by rw [← h1, ← h2]; exact congrArg (· / n) h
    subst e
    exact ⟨rfl, Nat.add_left_cancel h⟩
  · intro k i p hp hi
    refine ⟨if n = 1 then .one (p.2 (G.val glob k)) else .many ((List.range n).map fun i => p.2 (G.val glob (k * n + i))), by
      simp only [bilbyCompute, List.getElem?_mapIdx, hp, Option.map_some], ?_⟩
    by_cases h1 : n = 1
    · subst h1
      have : i = 0 := by omega
      subst this
      rw [if_pos rfl]
      show some (p.2 (G.val glob k)) = some (p.2 (G.val glob (k * 1 + 0)))
      rw [Nat.mul_one, Nat.add_zero]
    · rw [if_neg h1]
      simp [Out.at, hi]

/-- C88. A distribution class sampled by inversion: each sample is drawn from the distribution with that sample's own parameters, with
a draw of its own (draw `i + 1`; with one sample, draw 0). -/
theorem C88_inverse (G : RStream ρ U) (inv : List (Name × ℝ) → U → ℝ) (params : List (Name × (Nat → ℝ))) (n : Nat) (own : ρ) (info : Option ρ) (i : Nat)
    (hi : i < n) : Out.at (invPolyCompute G inv params n own info).2.2 i =
      some (inv (params.map fun p => (p.1, p.2 i)) (G.val (info.getD own) (if n = 1 then 0 else i + 1))) := by
  have hout : (invPolyCompute G inv params n own info).2.2 = if n = 1 then .one (inv (params.map fun p => (p.1, p.2 0)) (G.val (info.getD own) 0))
      else .many ((List.range n).map fun i => inv (params.map fun p => (p.1, p.2 i)) (G.val (info.getD own) (i + 1))) := by
    unfold invPolyCompute
    cases info <;> rfl
  rw [hout]
  by_cases hn : n = 1
  · subst hn
    have : i = 0 := by omega
    subst this
    rw [if_pos rfl]
    rfl
  · rw [if_neg hn, if_neg hn]
    show ((List.range n).map _)[i]? = _
    rw [List.getElem?_map, List.getElem?_range hi]
    rfl

/-- The draw used for sample `i`: the heavy hosts come first, in order, then the light ones. -/
noncomputable def drawOf (mass : Nat → ℝ) (n i : Nat) : Nat :=
  open Classical in
  if 10 ≤ mass i then ((List.range i).filter fun j => decide (10 ≤ mass j)).length
  else ((List.range n).filter fun j => decide (10 ≤ mass j)).length + ((List.range i).filter fun j => decide (mass j < 10)).length

theorem count_split (q : Nat → Bool) (n : Nat) : ((List.range n).filter q).length + ((List.range n).filter fun j => !q j).length = n := by
  induction n with
  | zero => rfl
  | succ n ih =>
    rw [List.range_succ, List.filter_append, List.filter_append, List.length_append, List.length_append]
    cases h : q n <;> simp [h] <;> omega

theorem count_lt (q : Nat → Bool) {i n : Nat} (hi : i < n) (hq : q i = true) : ((List.range i).filter q).length < ((List.range n).filter q).length := by
  induction n with
  | zero => omega
  | succ n ih =>
    rw [List.range_succ, List.filter_append, List.length_append]
    by_cases h : i = n
    · subst h; simp [hq]
    · have := ih (by omega); omega

/-- C88. The stretch of a supernova: each sample is drawn from the distribution for its own host's mass, from below 10 or from 10 on,
each with a draw of its own; the generator moves by one draw for each sample. -/
theorem C88_hostmass (G : RStream ρ U) (ge lt : U → ℝ) (mass : Nat → ℝ) (n : Nat) (own : ρ) (info : Option ρ) :
    (∀ i, i < n → Out.at (hostmassCompute G ge lt mass n own info).2.2 i =
      some ((if 10 ≤ mass i then ge else lt) (G.val (info.getD own) (drawOf mass n i)))) ∧
    (∀ i, i < n → drawOf mass n i < n) ∧ (∀ i j, i < n → j < n → drawOf mass n i = drawOf mass n j → i = j) := by
  classical
  have hlt : ∀ j, (decide (mass j < 10)) = !decide (10 ≤ mass j) := by
    intro j
    by_cases h : 10 ≤ mass j <;> simp [h, not_lt.2, not_le.1] <;> linarith
  have hinv : (List.range n).filter (fun j => decide (mass j < 10)) = (List.range n).filter (fun j => !decide (10 ≤ mass j)) := by
    congr 1; funext j; exact hlt j
  have hsplit := count_split (fun j => decide (10 ≤ mass j)) n
  refine ⟨?_, ?_, ?_⟩
  · intro i hi
    have hout : (hostmassCompute G ge lt mass n own info).2.2 = if n = 1 then .one (if decide (10 ≤ mass 0) = true then ge (G.val (info.getD own) 0) else lt (G.val (info.getD own) 0))
      else .many ((List.range n).map fun i => if decide (10 ≤ mass i) = true then
          ge (G.val (info.getD own) ((List.range i).filter fun j => decide (10 ≤ mass j) == decide (10 ≤ mass i)).length)
        else lt (G.val (info.getD own) (((List.range n).filter fun j => decide (10 ≤ mass j)).length +
          ((List.range i).filter fun j => decide (10 ≤ mass j) == decide (10 ≤ mass i)).length))) := by
      unfold hostmassCompute
      cases info <;> rfl
    rw [hout]
    by_cases hn : n = 1
    · subst hn
      have : i = 0 := by omega
      subst this
      rw [if_pos rfl]
      show some _ = _
      congr 1
      unfold drawOf
      by_cases h : 10 ≤ mass 0 <;> simp [h]
    · rw [if_neg hn]
      show ((List.range n).map _)[i]? = _
      rw [List.getElem?_map, List.getElem?_range hi]
      simp only [Option.map_some, Option.some.injEq]
      unfold drawOf
      by_cases h : 10 ≤ mass i
      · simp [h]
      · simp only [h, decide_false, Bool.false_eq_true, if_false]
        congr 3
        congr 2
        funext j
        rw [hlt j]
        cases decide (10 ≤ mass j) <;> rfl
  · intro i hi
    unfold drawOf
    split
    · rename_i h
      have := count_lt (fun j => decide (10 ≤ mass j)) hi (by simpa using h)
      omega
    · rename_i h
      have := count_lt (fun j => decide (mass j < 10)) hi (by simpa using not_le.1 h)
      rw [hinv] at this
      omega
  · intro i j hi hj h
    have mono : ∀ (q : Nat → Bool) {a b : Nat}, q a = true → q b = true → ((List.range a).filter q).length = ((List.range b).filter q).length → a = b := by
      intro q a b ha hb hab
      rcases lt_trichotomy a b with h | h | h
      · have := count_lt q h ha; omega
      · exact h
      · have := count_lt q h hb; omega
    unfold drawOf at h
    by_cases h1 : 10 ≤ mass i <;> by_cases h2 : 10 ≤ mass j
    · rw [if_pos h1, if_pos h2] at h
      exact mono (fun j => decide (10 ≤ mass j)) (by simpa using h1) (by simpa using h2) h
    · rw [if_pos h1, if_neg h2] at h
      have := count_lt (fun j => decide (10 ≤ mass j)) hi (by simpa using h1)
      omega
    · rw [if_neg h1, if_pos h2] at h
      have := count_lt (fun j => decide (10 ≤ mass j)) hj (by simpa using h2)
      omega
    · rw [if_neg h1, if_neg h2] at h
      exact mono (fun j => decide (mass j < 10)) (by simpa using not_le.1 h1) (by simpa using not_le.1 h2) (by omega)

/-- C88. The densities: heavy hosts have the normal density; light hosts have the same for `0 ≤ x1 < 5`, a smaller one for
`-5 < x1 < 0` and none beyond. -/
theorem C88_density {normal : ℝ → ℝ} (hn : ∀ x, 0 < normal x) (mass x1 : ℝ) :
    (10 ≤ mass → hostPdf normal mass x1 = normal x1) ∧
    (mass < 10 → 0 ≤ x1 → x1 < 5 → hostPdf normal mass x1 = normal x1) ∧
    (mass < 10 → -5 < x1 → x1 < 0 → 0 < hostPdf normal mass x1 ∧ hostPdf normal mass x1 < normal x1) ∧
    (mass < 10 → x1 ≤ -5 ∨ 5 ≤ x1 → hostPdf normal mass x1 = 0) := by
  unfold hostPdf hostP
  refine ⟨?_, ?_, ?_, ?_⟩
  · intro h
    rw [if_neg (not_lt.2 h), one_mul]
  · intro h h0 h5
    rw [if_pos h, if_pos ⟨by linarith, h5⟩, min_eq_left h0]
    simp
  · intro h h5 h0
    rw [if_pos h, if_pos ⟨h5, by linarith⟩, min_eq_right h0.le]
    have h2 : 0 < x1 ^ 2 := by nlinarith
    have : Real.exp (-x1 ^ 2) < 1 := by rw [Real.exp_lt_one_iff]; linarith
    exact ⟨mul_pos (Real.exp_pos _) (hn x1), by nlinarith [hn x1]⟩
  · intro h ho
    rw [if_pos h, if_neg, zero_mul]
    rintro ⟨h1, h2⟩
    rcases ho with ho | ho <;> linarith

/-- C88, pzflow: without conditional columns every output has a value for each sample, the same row of the flow for all of them; with
conditional columns (and several samples) the row of sample `i` is drawn for the inputs of sample `i`. A conditional column that is
not given raises at construction. What is missing: conditional flows with one sample (`C88_conditional_counterexample`). -/
theorem C88_flow_partial {Row : Type} (f : Flow Row) (none : Row) (seed : Nat) (cond : Nat → Row) (n : Nat) :
    ((∃ c ∈ f.conditional, c ∉ given) → pzInit f given = .error .valueError) ∧
    (f.conditional = [] ∨ n ≠ 1 → ∃ out, pzCompute f none seed cond n = .ok out ∧ out.map (·.1) = f.columns ∧
      ∀ p ∈ out, ∀ i, i < n → Out.at p.2 i = some (f.read (f.row seed i (if f.conditional = [] then none else cond i)) p.1)) := by
  constructor
  · rintro ⟨c, hc, hg⟩
    unfold pzInit
    rw [if_pos]
    rw [List.any_eq_true]
    exact ⟨c, hc, by simpa using hg⟩
  · intro h
    have fin : ∀ (rows : List Row) (g : Nat → Row), rows = (List.range n).map g → ∀ p ∈ (f.columns.map fun c =>
        (c, if n = 1 then Out.one ((rows.map fun r => f.read r c).headD 0) else Out.many (rows.map fun r => f.read r c))),
        ∀ i, i < n → Out.at p.2 i = some (f.read (g i) p.1) := by
      rintro rows g rfl p hp i hi
      obtain ⟨c, _, rfl⟩ := List.mem_map.1 hp
      dsimp only
      by_cases hn : n = 1
      · subst hn
        have : i = 0 := by omega
        subst this
        rfl
      · rw [if_neg hn]
        show ((List.map g (List.range n)).map _)[i]? = _
        rw [List.getElem?_map, List.getElem?_map, List.getElem?_range hi]
        rfl
    unfold pzCompute
    by_cases hc : f.conditional = []
    · refine ⟨_, by rw [if_neg (by simpa using hc)], by simp [Function.comp_def], ?_⟩
      simp only [if_pos hc]
      exact fin _ _ rfl
    · have hn : n ≠ 1 := by tauto
      refine ⟨_, by rw [if_pos hc, if_neg hn], by simp [Function.comp_def], ?_⟩
      simp only [if_neg hc]
      exact fin _ _ rfl

/-- C88 fails: a conditional flow cannot be sampled once. -/
theorem C88_conditional_counterexample {Row : Type} (f : Flow Row) (none : Row) (seed : Nat) (cond : Nat → Row) (h : f.conditional ≠ []) :
    pzCompute f none seed cond 1 = .error .valueError := by
  unfold pzCompute
  rw [if_pos h, if_pos rfl]

/-- concrete cases: three samples of `normal`-like draws `loc + scale * u` -/
example : ∃ a, npCompute (⟨fun r k => (r + k : ℝ), fun r k => r + k⟩ : RStream ℝ ℝ) (fun ps u => (ps.map (·.2)).sum + u) [] [("loc".toList, fun i => 10 * i)] 3 7
    (some 0) = .ok (7, some (0 + (3 : Nat)), a) ∧ a.shape = [3] ∧ a.get [2] = 10 * (2 : Nat) + (0 + (2 : Nat)) := by
  obtain ⟨a, h1, _, h3, h4⟩ := C86_scalar (⟨fun r k => (r + k : ℝ), fun r k => r + k⟩ : RStream ℝ ℝ) (fun ps u => (ps.map (·.2)).sum + u)
    [("loc".toList, fun i => 10 * i)] 3 7 0
  refine ⟨a, h1, by simpa using h3, ?_⟩
  have := h4 2 (by norm_num)
  simpa using this

end LCL.RandomProps
