import Verif.Model.Dust
import Verif.Props.Compute
import Verif.Props.Samplers1

/-!
# C105: dust maps
-/

namespace LCL.DustProps
open LCL Dust NodeSpec GraphSpec SamplerSpec GraphLemmas NodeLemmas
variable {σ : Type}

/-- `n` sampled numbers as a state holds them: a number for one sample, an array for several. -/
def sampled (n : Nat) (x : Nat → ℝ) : Val ℝ := if n = 1 then .scalar (x 0) else .arr ((List.range n).map fun (k : Nat) => .scalar (x k))

/-- A map that gives each position its own value, alone or in an array. -/
def Pointwise (q : DustMap) (f : ℝ → ℝ → ℝ) : Prop :=
  (∀ ra dec, q (.one ra dec) = .ok (.scalar (f ra dec))) ∧ ∀ l, q (.many l) = .ok (.arr (l.map fun p => .scalar (f p.1 p.2)))

/-- A conversion that treats each number of an array as it treats a single one. -/
def PointwiseConv : Option (Val ℝ → Except Err (Val ℝ)) → (ℝ → ℝ) → Prop
  | none, g => ∀ x, g x = x
  | some c, g => (∀ x, c (.scalar x) = .ok (.scalar (g x))) ∧
      ∀ l : List ℝ, c (.arr (l.map Val.scalar)) = .ok (.arr (l.map fun x => .scalar (g x)))

/-- A right ascension in `[0, 360)` that differs by whole turns. -/
def SameDirection (ra ra' : ℝ) : Prop := 0 ≤ ra' ∧ ra' < 360 ∧ ∃ k : ℤ, ra' = ra - 360 * k

theorem wrap_spec (ra : ℝ) : SameDirection ra (wrap ra) := by
  have h1 := Int.floor_le (ra / 360)
  have h2 := Int.lt_floor_add_one (ra / 360)
  refine ⟨?_, ?_, ⌊ra / 360⌋, rfl⟩
  · unfold wrap; linarith
  · unfold wrap; linarith

theorem same_unique {ra a b : ℝ} (ha : SameDirection ra a) (hb : SameDirection ra b) : a = b := by
  obtain ⟨h1, h2, k, rfl⟩ := ha
  obtain ⟨h3, h4, m, rfl⟩ := hb
  have : k = m := by
    by_contra hne
    rcases lt_or_gt_of_ne hne with h | h
    · have : (k : ℝ) + 1 ≤ m := by exact_mod_cast h
      linarith
    · have : (m : ℝ) + 1 ≤ k := by exact_mod_cast h
      linarith
  rw [this]

theorem mapM_number (l : List ℝ) : (l.map Val.scalar).mapM number = .ok l := by
  induction l with
  | nil => rfl
  | cons x l ih => rw [List.map_cons, List.mapM_cons, ih]; rfl

theorem mapM_sky : ∀ (l : List (ℝ × ℝ)), (∀ p ∈ l, -90 ≤ p.2 ∧ p.2 ≤ 90) → l.mapM skyOne = .ok (l.map fun p => (wrap p.1, p.2))
  | [], _ => rfl
  | p :: l, h => by
    rw [List.mapM_cons, mapM_sky l fun q hq => h q (List.mem_cons_of_mem _ hq)]
    unfold skyOne
    rw [if_pos (h p List.mem_cons_self)]
    rfl

theorem mapM_sky_bad : ∀ (l : List (ℝ × ℝ)), (∃ p ∈ l, ¬ (-90 ≤ p.2 ∧ p.2 ≤ 90)) → l.mapM skyOne = .error .valueError
  | [], h => by simp at h
  | p :: l, h => by
    rw [List.mapM_cons]
    unfold skyOne
    by_cases hp : -90 ≤ p.2 ∧ p.2 ≤ 90
    · rw [if_pos hp]
      obtain ⟨q, hq, hb⟩ := h
      rcases List.mem_cons.1 hq with rfl | hq
      · exact absurd hp hb
      · have := mapM_sky_bad l ⟨q, hq, hb⟩
        unfold skyOne at this
        simp only [bind, Except.bind]
        rw [this]
    · rw [if_neg hp]
      rfl

theorem sampled_arr {n : Nat} (hn : n ≠ 1) (x : Nat → ℝ) : sampled n x = .arr (((List.range n).map x).map Val.scalar) := by
  unfold sampled
  rw [if_neg hn, List.map_map]
  rfl

theorem zip_sampled (n : Nat) (x y : Nat → ℝ) : ((List.range n).map x).zip ((List.range n).map y) = (List.range n).map fun k => (x k, y k) := by
  rw [List.zip_map']

/-- The function of the node on sampled positions. -/
theorem compute_sampled (q : DustMap) (f : ℝ → ℝ → ℝ) (hq : Pointwise q f) (conv : Option (Val ℝ → Except Err (Val ℝ))) (g : ℝ → ℝ)
    (hg : PointwiseConv conv g) (n : Nat) (hn : 0 < n) (ra dec : Nat → ℝ) (hd : ∀ k < n, -90 ≤ dec k ∧ dec k ≤ 90) :
    computeEbv (some q) conv (sampled n ra) (sampled n dec) = .ok (sampled n fun k => g (f (wrap (ra k)) (dec k))) := by
  by_cases h1 : n = 1
  · subst h1
    unfold sampled computeEbv skyCoord skyOne
    simp only [if_true]
    rw [if_pos (hd 0 (by norm_num))]
    dsimp only
    rw [hq.1]
    dsimp only
    cases conv with
    | none => dsimp only; rw [hg]
    | some c => dsimp only; rw [hg.1]
  · rw [sampled_arr h1 ra, sampled_arr h1 dec, sampled_arr h1 fun k => g (f (wrap (ra k)) (dec k))]
    unfold computeEbv skyCoord
    dsimp only
    rw [mapM_number, mapM_number]
    dsimp only
    rw [if_pos (by simp), zip_sampled, mapM_sky _ (by
      intro p hp
      obtain ⟨k, hk, rfl⟩ := List.mem_map.1 hp
      exact hd k (List.mem_range.1 hk))]
    dsimp only
    rw [hq.2]
    dsimp only
    cases conv with
    | none =>
      dsimp only
      congr 2
      simp only [List.map_map]
      apply List.map_congr_left
      intro k _
      simp [hg (f (wrap (ra k)) (dec k))]
    | some c =>
      dsimp only
      have := hg.2 ((List.range n).map fun k => f (wrap (ra k)) (dec k))
      simp only [List.map_map] at this ⊢
      exact this

theorem compute_bad (q : DustMap) (conv : Option (Val ℝ → Except Err (Val ℝ))) (n : Nat) (ra dec : Nat → ℝ)
    (hd : ∃ k < n, ¬ (-90 ≤ dec k ∧ dec k ≤ 90)) :
    computeEbv (some q) conv (sampled n ra) (sampled n dec) = .error .valueError := by
  obtain ⟨k, hk, hb⟩ := hd
  by_cases h1 : n = 1
  · subst h1
    obtain rfl : k = 0 := by omega
    unfold sampled computeEbv skyCoord skyOne
    simp only [if_true]
    rw [if_neg hb]
  · rw [sampled_arr h1 ra, sampled_arr h1 dec]
    unfold computeEbv skyCoord
    dsimp only
    rw [mapM_number, mapM_number]
    dsimp only
    rw [if_pos (by simp), zip_sampled, mapM_sky_bad]
    exact ⟨(ra k, dec k), List.mem_map.2 ⟨k, List.mem_range.2 hk, rfl⟩, hb⟩

/-- The inputs of the node. -/
theorem inputs (label : Name) (setters : Dict Name (Setter ℝ)) (map : Option DustMap) (conv : Option (Val ℝ → Except Err (Val ℝ)))
    (s : GState ℝ) (hs : Reachable s) (vra vdec : Val ℝ)
    (h1 : readParam s label "ra".toList = some vra) (h2 : readParam s label "dec".toList = some vdec) :
    Heap.buildInputs (node (σ := σ) label setters map conv) s [] = .ok [("ra".toList, vra), ("dec".toList, vdec)] := by
  have hw := reachable_wf hs
  rw [read_eq_look _ hw.toShape] at h1 h2
  have e1 : Heap.lookParam s (node (σ := σ) label setters map conv).str "ra".toList = .ok vra := lookParam_of_look h1
  have e2 : Heap.lookParam s (node (σ := σ) label setters map conv).str "dec".toList = .ok vdec := lookParam_of_look h2
  unfold Heap.buildInputs
  rw [show (node (σ := σ) label setters map conv).argNames = ["ra".toList, "dec".toList] from rfl, List.foldlM_cons]
  simp only [Dict.get?, bind, Except.bind, e1, List.foldlM_cons, e2, List.foldlM_nil]
  rfl

/-- **C105.** For every map and conversion that act on each position by itself, every number of samples and all sampled positions with declinations
in range, a `DustmapWrapper` succeeds and its output `ebv` is, for sample `k`, the converted value of the map at that sample's own position (the right
ascension taken into `[0, 360)`); unless it is fixed. No other parameter changes. -/
theorem C105_wrapper (label : Name) (hdot : '.' ∉ label) (setters : Dict Name (Setter ℝ)) (q : DustMap) (f : ℝ → ℝ → ℝ) (hq : Pointwise q f)
    (conv : Option (Val ℝ → Except Err (Val ℝ))) (g : ℝ → ℝ) (hg : PointwiseConv conv g) (s : GState ℝ) (hs : Reachable s) (hn : 0 < s.numSamples) (w : σ)
    (ra dec turned : Nat → ℝ) (h1 : readParam s label "ra".toList = some (sampled s.numSamples ra))
    (h2 : readParam s label "dec".toList = some (sampled s.numSamples dec)) (hd : ∀ k < s.numSamples, -90 ≤ dec k ∧ dec k ≤ 90)
    (ht : ∀ k, SameDirection (ra k) (turned k)) :
    ∃ s' , Heap.computeS (node label setters (some q) conv) s w [] = ⟨s', w, .ok (sampled s.numSamples fun k => g (f (turned k) (dec k)))⟩ ∧
      (isFixed s label "ebv".toList ∨
        readParam s' label "ebv".toList = some (sampled s.numSamples fun k => g (f (turned k) (dec k)))) ∧
      ∀ m p, ((m, p) ≠ (label, "ebv".toList) ∨ isFixed s m p) → readParam s' m p = readParam s m p := by
  have hturn : turned = fun k => wrap (ra k) := funext fun k => same_unique (ht k) (wrap_spec _)
  subst hturn
  have hc := compute_sampled q f hq conv g hg s.numSamples hn ra dec hd
  generalize hres : (sampled s.numSamples fun k => g (f (wrap (ra k)) (dec k))) = res at hc
  obtain ⟨s', h3, h4, h5⟩ := SamplerProps.save_one (node (σ := σ) label setters (some q) conv) "ebv".toList rfl hdot (by decide) s hs res
    (by
      rw [← hres]
      unfold rowsOf sampled
      split <;> simp [cells, *])
    (by
      intro h
      rw [← hres, sampled_arr h]
      exact ⟨_, rfl⟩)
  refine ⟨s', ?_, h4, h5⟩
  unfold Heap.computeS
  rw [show (node (σ := σ) label setters (some q) conv).body = some (body (some q) conv) from rfl]
  dsimp only
  rw [inputs label setters (some q) conv s hs _ _ h1 h2]
  dsimp only
  have hb : body (σ := σ) (some q) conv w s.numSamples [("ra".toList, sampled s.numSamples ra), ("dec".toList, sampled s.numSamples dec)] = (w, .ok res) := by
    unfold body
    rw [show Dict.get? [("ra".toList, sampled s.numSamples ra), ("dec".toList, sampled s.numSamples dec)] "ra".toList = some (sampled s.numSamples ra) from rfl,
      show Dict.get? [("ra".toList, sampled s.numSamples ra), ("dec".toList, sampled s.numSamples dec)] "dec".toList = some (sampled s.numSamples dec) from rfl]
    dsimp only
    rw [hc]
  rw [hb]
  dsimp only
  rw [h3]

/-- **C105.** Coordinates not given, a map not given, or a sampled declination outside `[-90, 90]`: ValueError, and the state stays as it is. -/
theorem C105_refused (label : Name) (setters : Dict Name (Setter ℝ)) (map : Option DustMap)
    (conv : Option (Val ℝ → Except Err (Val ℝ))) (s : GState ℝ) (hs : Reachable s) (w : σ)
    (ra dec : Nat → ℝ) (h1 : readParam s label "ra".toList = some (sampled s.numSamples ra))
    (h2 : readParam s label "dec".toList = some (sampled s.numSamples dec))
    (hbad : map = none ∨ ∃ k < s.numSamples, ¬ (-90 ≤ dec k ∧ dec k ≤ 90)) (raGiven decGiven : Bool) :
    Heap.computeS (node label setters map conv) s w [] = ⟨s, w, .error .valueError⟩ ∧
    (initCheck raGiven decGiven = some .valueError ↔ raGiven = false ∨ decGiven = false) := by
  refine ⟨?_, by unfold initCheck; cases raGiven <;> cases decGiven <;> simp⟩
  have hc : computeEbv map conv (sampled s.numSamples ra) (sampled s.numSamples dec) = .error .valueError := by
    rcases hbad with rfl | hb
    · rfl
    · cases map with
      | none => rfl
      | some q => exact compute_bad q conv _ ra dec hb
  unfold Heap.computeS
  rw [show (node (σ := σ) label setters map conv).body = some (body map conv) from rfl]
  dsimp only
  rw [inputs label setters map conv s hs _ _ h1 h2]
  dsimp only
  have hb : body (σ := σ) map conv w s.numSamples [("ra".toList, sampled s.numSamples ra), ("dec".toList, sampled s.numSamples dec)] =
      (w, .error .valueError) := by
    unfold body
    rw [show Dict.get? [("ra".toList, sampled s.numSamples ra), ("dec".toList, sampled s.numSamples dec)] "ra".toList = some (sampled s.numSamples ra) from rfl,
      show Dict.get? [("ra".toList, sampled s.numSamples ra), ("dec".toList, sampled s.numSamples dec)] "dec".toList = some (sampled s.numSamples dec) from rfl]
    dsimp only
    rw [hc]
  rw [hb]

/-- **C105.** The hemisphere map acts on each position by itself: its northern value from the equator upwards, its southern value below, whether it is
asked for one position or for an array. -/
theorem C105_hemisphere (north south : ℝ) :
    ∃ f, Pointwise (hemisphere north south) f ∧ ∀ ra dec, (0 ≤ dec → f ra dec = north) ∧ (dec < 0 → f ra dec = south) := by
  refine ⟨fun _ dec => hemiScalar north south dec, ⟨fun _ _ => rfl, fun l => ?_⟩, fun ra dec => ⟨fun h => ?_, fun h => ?_⟩⟩
  · unfold hemisphere
    dsimp only
    congr 2
    apply List.map_congr_left
    intro p _
    unfold hemiScalar hemiArray
    by_cases h : p.2 < 0
    · rw [if_pos h, if_neg (not_le.2 h)]
    · rw [if_neg h, if_pos (not_lt.1 h)]
  · exact if_pos h
  · exact if_neg (not_le.2 h)

/-! ## The files of the SFD map -/

/-- **C105** (partial: see the counterexample below). `SFDMap` can be made when its files are in the data directory, without the archive, and when the
archive can be had; afterwards the files are on disk. -/
theorem C105_sfd_partial (archive : Bool) (d : Disk) :
    ((∃ dir, (loadData archive d).2 = .ok dir) ↔ d.top = true ∨ archive = true) ∧
    (∀ dir, (loadData archive d).2 = .ok dir → (dir = false → (loadData archive d).1.top = true) ∧ (dir = true → (loadData archive d).1.sub = true)) ∧
    (d.top = true → (loadData archive d).1 = d) := by
  rcases d with ⟨top, sub⟩
  unfold loadData
  cases top <;> cases archive <;> simp

/-- **C105, where the code falls short.** The files an earlier `SFDMap` downloaded are not found again: they lie in `sfddata-master`, which is not
looked at, and without the archive the construction fails. -/
theorem C105_sfd_counterexample : ∃ d : Disk, (loadData true d).2 = .ok true ∧ (loadData false (loadData true d).1).2 = .error .osError :=
  ⟨⟨false, false⟩, rfl, rfl⟩

/-! ## The hypotheses can be met -/

/-- A state with two sampled positions. -/
def twoPositions : GState ℝ := run { numSamples := 2, numParams := 0, states := [], fixed := [] }
  [.set "dust".toList "ra".toList (.arr [.scalar 370, .scalar (-10)]) false, .set "dust".toList "dec".toList (.arr [.scalar 45, .scalar (-45)]) false]

example : ∃ s', Heap.computeS (node "dust".toList [] (some (hemisphere 1 2)) none) twoPositions () [] =
    ⟨s', (), .ok (.arr [.scalar 1, .scalar 2])⟩ := by
  obtain ⟨f, hf, hv⟩ := C105_hemisphere 1 2
  obtain ⟨s', h, _, _⟩ := C105_wrapper (σ := Unit) "dust".toList (by decide) [] (hemisphere 1 2) f hf none id (fun _ => rfl) twoPositions
    ⟨2, _, _, rfl, rfl⟩ (by decide) () (fun k => if k = 0 then 370 else -10) (fun k => if k = 0 then 45 else -45)
    (fun k => if k = 0 then 10 else 350) rfl rfl (by
      intro k hk
      split <;> norm_num) (by
      intro k
      show SameDirection (if k = 0 then 370 else -10) (if k = 0 then 10 else 350)
      split
      · exact ⟨by norm_num, by norm_num, 1, by norm_num⟩
      · exact ⟨by norm_num, by norm_num, -1, by norm_num⟩)
  refine ⟨s', ?_⟩
  rw [h]
  have : sampled twoPositions.numSamples (fun k => id (f (if k = 0 then 10 else 350) (if k = 0 then 45 else -45))) =
      .arr [.scalar (f 10 45), .scalar (f 350 (-45))] := rfl
  rw [this, (hv 10 45).1 (by norm_num), (hv 350 (-45)).2 (by norm_num)]

end LCL.DustProps
