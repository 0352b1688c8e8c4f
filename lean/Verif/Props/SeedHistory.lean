import Verif.Spec.SeedHistory

/-!
# Property C116: after seeding, a node's values depend only on the seed and its own calls
-/

namespace LCL.SeedProps
open LCL LCL.RandomNodes LCL.SeedHistory LCL.SeedSpec

variable {ρ U : Type}

/-- The results of a sequence of calls without explicit generator, starting from a state of the node's own generator. -/
noncomputable def replay (G : RStream ρ U) (k : Kind U) : ρ → List (List (Name × (Nat → ℝ)) × Nat) → List Result
  | _, [] => []
  | own, (params, n) :: l => (compute G k params n own own none).2.2 :: replay G k (compute G k params n own own none).1 l

theorem explicit_keeps (G : RStream ρ U) {k : Kind U} (hk : OwnGenerator k) (params : List (Name × (Nat → ℝ))) (n : Nat) (own glob g : ρ) :
    (compute G k params n own glob (some g)).1 = own := by
  cases k with
  | numpy dist size =>
    unfold compute npCompute
    dsimp only
    cases npCall G dist (params.map fun p => (p.1, argOf n p.2)) (sizeParam n size) g with
    | error e => rfl
    | ok q => rfl
  | invClass inv => rfl
  | invObject inv => rfl
  | hostmass ge lt mass =>
    unfold compute
    dsimp only
    cases params.find? (fun p => decide (p.1 = mass)) with
    | none => rfl
    | some p => rfl
  | draws used f => rfl
  | tabulated inv => exact hk.elim
  | bilby prior => exact hk.elim

theorem own_only (G : RStream ρ U) {k : Kind U} (hk : k.isBilby = false) (params : List (Name × (Nat → ℝ))) (n : Nat) (own glob : ρ) (info : Option ρ) :
    (compute G k params n own glob info).1 = (compute G k params n own own info).1 ∧ (compute G k params n own glob info).2.2 = (compute G k params n own own info).2.2 := by
  cases k with
  | numpy dist size =>
    unfold compute
    dsimp only
    cases npCompute G dist size params n own info with
    | error e => exact ⟨rfl, rfl⟩
    | ok q => exact ⟨rfl, rfl⟩
  | invClass inv => exact ⟨rfl, rfl⟩
  | invObject inv => exact ⟨rfl, rfl⟩
  | hostmass ge lt mass =>
    unfold compute
    dsimp only
    cases params.find? (fun p => decide (p.1 = mass)) with
    | none => exact ⟨rfl, rfl⟩
    | some p => exact ⟨rfl, rfl⟩
  | draws used f => exact ⟨rfl, rfl⟩
  | tabulated inv => exact ⟨rfl, rfl⟩
  | bilby prior => cases hk

theorem seedNode_get_ne (G : Gen ρ U) (w : World ρ U) {i j : Nat} (h : j ≠ i) (nd : Node ρ U) (s : Nat) : (seedNode G w j nd s).nodes.get? i = w.nodes.get? i := by
  unfold seedNode
  split
  · exact Dict.get?_set_ne _ _ h
  · exact Dict.get?_set_ne _ _ h

/-- The node an event is about. -/
def target : Event ρ U → Nat
  | .create j _ _ _ => j
  | .setSeed j _ => j
  | .sample j _ _ _ => j

/-- Events that do not concern a node leave it as it is. -/
theorem step_other (G : Gen ρ U) (w : World ρ U) {i : Nat} (e : Event ρ U)
    (he : target e ≠ i) : (step G w e).1.nodes.get? i = w.nodes.get? i := by
  cases e with
  | create j k s x =>
    unfold step createNode
    cases s with
    | none => exact Dict.get?_set_ne _ _ he
    | some s => exact seedNode_get_ne G w he _ _
  | setSeed j s =>
    unfold step
    dsimp only
    cases w.nodes.get? j with
    | none => rfl
    | some nd => exact seedNode_get_ne G w he _ _
  | sample j params n info =>
    unfold step
    dsimp only
    cases w.nodes.get? j with
    | none => rfl
    | some nd => exact Dict.get?_set_ne _ _ he

theorem run_cons (G : Gen ρ U) (w : World ρ U) (e : Event ρ U) (es : List (Event ρ U)) : run G w (e :: es) = (e, (step G w e).2) :: run G (step G w e).1 es := rfl

theorem given_cons (i j a : Nat) (params : List (Name × (Nat → ℝ))) (n : Nat) (r : Result) (l : List (Event ρ U × Option (Nat × Result))) :
    given i ((.sample j params n none, some (a, r)) :: l) = if j = i then r :: given i l else given i l := rfl

theorem asked_cons (i j : Nat) (params : List (Name × (Nat → ℝ))) (n : Nat) (es : List (Event ρ U)) :
    asked i (.sample j params n none :: es) = if j = i then (params, n) :: asked i es else asked i es := rfl

/-- The results of a node in any history are the replay of its own calls. -/
theorem given_eq (G : Gen ρ U) (i : Nat) {k : Kind U} (hb : k.isBilby = false) : ∀ (es : List (Event ρ U)) (w : World ρ U) (own : ρ), w.nodes.get? i = some ⟨k, own⟩ →
    LeavesAlone i es → (OwnGenerator k ∨ NoExplicit i es) → given i (run G w es) = replay G.toRStream k own (asked i es)
  | [], _, _, _, _, _ => rfl
  | e :: es, w, own, hw, ha, hx => by
    have hx' : OwnGenerator k ∨ NoExplicit i es := hx.imp id (fun h p n g hm => h p n g (by simp [hm]))
    have ha' : LeavesAlone i es := fun e' h' => ha e' (by simp [h'])
    have hne := ha e (by simp)
    cases e with
    | create j kk s x =>
      have hj : j ≠ i := by rintro rfl; exact hne.1 kk s x rfl
      exact given_eq G i hb es _ own ((step_other G w (.create j kk s x) hj).trans hw) ha' hx'
    | setSeed j s =>
      have hj : j ≠ i := by rintro rfl; exact hne.2 s rfl
      exact given_eq G i hb es _ own ((step_other G w (.setSeed j s) hj).trans hw) ha' hx'
    | sample j params n info =>
      by_cases hj : j = i
      · subst hj
        have hstep : step G w (.sample j params n info) =
            ({ nodes := w.nodes.set j ⟨k, (compute G.toRStream k params n own w.bilby info).1⟩, bilby := (compute G.toRStream k params n own w.bilby info).2.1 },
              some (j, (compute G.toRStream k params n own w.bilby info).2.2)) := by
          unfold step
          dsimp only
          rw [hw]
        cases info with
        | some g =>
          have h2 : given j (run G w (.sample j params n (some g) :: es)) = given j (run G (step G w (.sample j params n (some g))).1 es) := rfl
          rw [h2]
          refine given_eq G j hb es _ own ?_ ha' hx'
          rw [hstep]
          dsimp only
          rcases hx with hk | hx
          · rw [Dict.get?_set_self, explicit_keeps G.toRStream hk]
          · exact absurd (by simp) (hx params n g)
        | none =>
          have h2 : given j (run G w (.sample j params n none :: es)) =
              (compute G.toRStream k params n own w.bilby none).2.2 :: given j (run G (step G w (.sample j params n none)).1 es) := by
            rw [run_cons, hstep, given_cons, if_pos rfl]
          have h3 : asked j (.sample j params n none :: es) = (params, n) :: asked j es := by
            rw [asked_cons, if_pos rfl]
          rw [h2, h3]
          unfold replay
          rw [(own_only G.toRStream hb params n own w.bilby none).2]
          congr 1
          rw [← (own_only G.toRStream hb params n own w.bilby none).1]
          refine given_eq G j hb es _ _ ?_ ha' hx'
          rw [hstep]
          exact Dict.get?_set_self _ _ _
      · have h3 : asked i (.sample j params n info :: es) = asked i es := by
          cases info with
          | none => rw [asked_cons, if_neg hj]
          | some g => rfl
        have h2 : given i (run G w (.sample j params n info :: es)) = given i (run G (step G w (.sample j params n info)).1 es) := by
          cases info with
          | some g => rfl
          | none =>
            rw [run_cons]
            cases hr : (step G w (.sample j params n none)).2 with
            | none => rfl
            | some q =>
              obtain ⟨a, b⟩ := q
              rw [given_cons, if_neg hj]
        rw [h2, h3]
        exact given_eq G i hb es _ own ((step_other G w (.sample j params n info) hj).trans hw) ha' hx'

theorem notBilby {k : Kind U} (hk : OwnGenerator k) : k.isBilby = false := by cases k <;> first | rfl | exact hk.elim

/-- C116. A numpy, scipy, given-value, table, position or supernova stretch node, once seeded, gives values that depend on the seed and on its own calls without explicit generator alone: in any two
sessions, with any other nodes, any earlier history of its own, any calls of other nodes in between and any calls of its own with an explicit generator, the same calls give the same values. -/
theorem C116_replay_partial (G : Gen ρ U) (i s : Nat) {k : Kind U} (hk : OwnGenerator k) (w₁ w₂ : World ρ U) (own₁ own₂ : ρ) (h₁ : w₁.nodes.get? i = some ⟨k, own₁⟩)
    (h₂ : w₂.nodes.get? i = some ⟨k, own₂⟩) (es₁ es₂ : List (Event ρ U)) (ha₁ : LeavesAlone i es₁) (ha₂ : LeavesAlone i es₂) (hsame : asked i es₁ = asked i es₂) :
    given i (run G (after G w₁ [.setSeed i s]) es₁) = given i (run G (after G w₂ [.setSeed i s]) es₂) := by
  have key : ∀ (w : World ρ U) (own : ρ), w.nodes.get? i = some ⟨k, own⟩ → (after G w [.setSeed i s]).nodes.get? i = some ⟨k, G.seeded s⟩ := by
    intro w own h
    have hb : k.isBilby = false := notBilby hk
    unfold after after step
    dsimp only
    rw [h]
    dsimp only
    unfold seedNode
    dsimp only
    rw [hb]
    exact Dict.get?_set_self _ _ _
  rw [given_eq G i (notBilby hk) es₁ _ _ (key _ _ h₁) ha₁ (Or.inl hk), given_eq G i (notBilby hk) es₂ _ _ (key _ _ h₂) ha₂ (Or.inl hk), hsame]

/-- C116. Giving the seed to the constructor is the same as seeding the node later. -/
theorem C116_created_partial (G : Gen ρ U) (i s : Nat) {k : Kind U} (hk : OwnGenerator k) (w₁ w₂ : World ρ U) (own₂ x : ρ)
    (h₂ : w₂.nodes.get? i = some ⟨k, own₂⟩) (es₁ es₂ : List (Event ρ U)) (ha₁ : LeavesAlone i es₁) (ha₂ : LeavesAlone i es₂) (hsame : asked i es₁ = asked i es₂) :
    given i (run G (after G w₁ [.create i k (some s) x]) es₁) = given i (run G (after G w₂ [.setSeed i s]) es₂) := by
  have hb : k.isBilby = false := notBilby hk
  have hc : (after G w₁ [.create i k (some s) x]).nodes.get? i = some ⟨k, G.seeded s⟩ := by
    unfold after after step createNode
    dsimp only
    unfold seedNode
    dsimp only
    rw [hb]
    exact Dict.get?_set_self _ _ _
  have hs : (after G w₂ [.setSeed i s]).nodes.get? i = some ⟨k, G.seeded s⟩ := by
    unfold after after step
    dsimp only
    rw [h₂]
    dsimp only
    unfold seedNode
    dsimp only
    rw [hb]
    exact Dict.get?_set_self _ _ _
  rw [given_eq G i hb es₁ _ _ hc ha₁ (Or.inl hk), given_eq G i hb es₂ _ _ hs ha₂ (Or.inl hk), hsame]

/-- C116. Two nodes of one kind with one seed give the same values in the same calls, however their calls are interleaved. -/
theorem C116_twins_partial (G : Gen ρ U) (i j s : Nat) (hij : i ≠ j) {k : Kind U} (hk : OwnGenerator k) (w : World ρ U) (x y : ρ) (es : List (Event ρ U))
    (hi : LeavesAlone i es) (hj : LeavesAlone j es) (hsame : asked i es = asked j es) :
    given i (run G (after G w [.create i k (some s) x, .create j k (some s) y]) es) = given j (run G (after G w [.create i k (some s) x, .create j k (some s) y]) es) := by
  have hb : k.isBilby = false := notBilby hk
  have hcj : (after G w [.create i k (some s) x, .create j k (some s) y]).nodes.get? j = some ⟨k, G.seeded s⟩ := by
    unfold after after after step createNode
    dsimp only
    unfold seedNode
    dsimp only
    rw [hb]
    exact Dict.get?_set_self _ _ _
  have hci : (after G w [.create i k (some s) x, .create j k (some s) y]).nodes.get? i = some ⟨k, G.seeded s⟩ := by
    unfold after after after step createNode
    dsimp only
    unfold seedNode
    dsimp only
    rw [hb]
    refine (Dict.get?_set_ne _ _ hij.symm).trans ?_
    exact Dict.get?_set_self _ _ _
  rw [given_eq G i hb es _ _ hci hi (Or.inl hk), given_eq G j hb es _ _ hcj hj (Or.inl hk), hsame]

/-! ### A generator that counts -/

/-- Draw number `k` from state `r` is `r + k`. -/
def counter : Gen Nat Nat where
  val r k := r + k
  adv r k := r + k
  seeded s := 100 * s

/-- A session with one node of each of the given kinds. -/
def session (ks : List (Kind Nat)) : World Nat Nat := ⟨ks.mapIdx fun i k => (i, ⟨k, 0⟩), 0⟩

/-- A numpy node that gives its draw. -/
def uniform : Kind Nat := .numpy (fun _ u => (u : ℝ)) []

/-- The values of the seeded node 0, with node 1 sampled in between and an explicit generator used once, and alone. -/
example : given 0 (run counter (after counter (session [uniform, uniform]) [.setSeed 0 7]) [.sample 1 [] 3 none, .sample 0 [] 2 none, .sample 0 [] 5 (some 1), .setSeed 1 4, .sample 0 [] 1 none]) =
    given 0 (run counter (after counter (session [uniform]) [.setSeed 0 7]) [.sample 0 [] 2 none, .sample 0 [] 1 none]) := by
  refine C116_replay_partial counter 0 7 (k := uniform) trivial _ _ 0 0 rfl rfl _ _ ?_ ?_ rfl
  · unfold LeavesAlone; simp
  · unfold LeavesAlone; simp

/-- C116. A `DistributionSampler` does so when it is not sampled with an explicit generator in between. -/
theorem C116_tabulated_partial (G : Gen ρ U) (i s : Nat) (inv : U → Except Err ℝ) (w₁ w₂ : World ρ U) (own₁ own₂ : ρ) (h₁ : w₁.nodes.get? i = some ⟨.tabulated inv, own₁⟩)
    (h₂ : w₂.nodes.get? i = some ⟨.tabulated inv, own₂⟩) (es₁ es₂ : List (Event ρ U)) (ha₁ : LeavesAlone i es₁) (ha₂ : LeavesAlone i es₂)
    (hx₁ : NoExplicit i es₁) (hx₂ : NoExplicit i es₂) (hsame : asked i es₁ = asked i es₂) :
    given i (run G (after G w₁ [.setSeed i s]) es₁) = given i (run G (after G w₂ [.setSeed i s]) es₂) := by
  have key : ∀ (w : World ρ U) (own : ρ), w.nodes.get? i = some ⟨.tabulated inv, own⟩ → (after G w [.setSeed i s]).nodes.get? i = some ⟨.tabulated inv, G.seeded s⟩ := by
    intro w own h
    unfold after after step
    dsimp only
    rw [h]
    exact Dict.get?_set_self _ _ _
  rw [given_eq G i rfl es₁ _ _ (key _ _ h₁) ha₁ (Or.inr hx₁), given_eq G i rfl es₂ _ _ (key _ _ h₂) ha₂ (Or.inr hx₂), hsame]

/-- C116 fails for `DistributionSampler`: a call with an explicit generator uses up the node's own draws, so that the next value is another one. -/
theorem C116_tabulated_counterexample :
    given 0 (run counter (after counter (session [.tabulated fun u => .ok u]) [.setSeed 0 7]) [.sample 0 [] 1 none]) = [.out (.one 700)] ∧
    given 0 (run counter (after counter (session [.tabulated fun u => .ok u]) [.setSeed 0 7]) [.sample 0 [] 1 (some 5), .sample 0 [] 1 none]) = [.out (.one 701)] := by
  constructor
  · have : given 0 (run counter (after counter (session [.tabulated fun u => .ok u]) [.setSeed 0 7]) [.sample 0 [] 1 none]) = [.out (.one ((700 : ℕ) : ℝ))] := rfl
    simpa using this
  · have : given 0 (run counter (after counter (session [.tabulated fun u => .ok u]) [.setSeed 0 7]) [.sample 0 [] 1 (some 5), .sample 0 [] 1 none]) = [.out (.one ((701 : ℕ) : ℝ))] := rfl
    simpa using this

/-- The results of calls of the only bilby node. -/
noncomputable def replayBilby (G : RStream ρ U) (prior : List (Name × (U → ℝ))) : ρ → List (List (Name × (Nat → ℝ)) × Nat) → List Result
  | _, [] => []
  | g, (_, n) :: l => .outs (bilbyCompute G prior n g none).2.2 :: replayBilby G prior (bilbyCompute G prior n g none).1 l

theorem compute_glob (G : RStream ρ U) {k : Kind U} (hk : k.isBilby = false) (params : List (Name × (Nat → ℝ))) (n : Nat) (own glob : ρ) (info : Option ρ) :
    (compute G k params n own glob info).2.1 = glob := by
  cases k with
  | numpy dist size =>
    unfold compute
    dsimp only
    cases npCompute G dist size params n own info with
    | error e => rfl
    | ok q => rfl
  | invClass inv => rfl
  | invObject inv => rfl
  | hostmass ge lt mass =>
    unfold compute
    dsimp only
    cases params.find? (fun p => decide (p.1 = mass)) with
    | none => rfl
    | some p => rfl
  | draws used f => rfl
  | tabulated inv => rfl
  | bilby prior => cases hk

theorem seedNode_glob (G : Gen ρ U) (w : World ρ U) (j : Nat) {nd : Node ρ U} (h : nd.kind.isBilby = false) (s : Nat) : (seedNode G w j nd s).bilby = w.bilby := by
  unfold seedNode
  rw [h]
  rfl

theorem seedNode_get (G : Gen ρ U) (w : World ρ U) (j : Nat) (nd : Node ρ U) (s : Nat) : ∃ own, (seedNode G w j nd s).nodes.get? j = some ⟨nd.kind, own⟩ := by
  unfold seedNode
  split
  · exact ⟨nd.own, Dict.get?_set_self _ _ _⟩
  · exact ⟨G.seeded s, Dict.get?_set_self _ _ _⟩

/-- Other nodes do not touch bilby's generator, and none of them becomes a bilby node. -/
theorem other_glob (G : Gen ρ U) (w : World ρ U) {i : Nat} (e : Event ρ U) (es : List (Event ρ U)) (ho : OnlyBilby i w (e :: es))
    (he : target e ≠ i) :
    (step G w e).1.bilby = w.bilby ∧ OnlyBilby i (step G w e).1 es := by
  have hes : ∀ j k s x, .create j k s x ∈ es → k.isBilby = false := fun j k s x h => ho.2 j k s x (by simp [h])
  have hset : ∀ (w' : World ρ U) (j : Nat) (nd : Node ρ U), nd.kind.isBilby = false → (∀ m, m ≠ j → w'.nodes.get? m = w.nodes.get? m) →
      (∃ own, w'.nodes.get? j = some ⟨nd.kind, own⟩) → OnlyBilby i w' es := by
    intro w' j nd hnd hm hj
    refine ⟨?_, hes⟩
    intro m nd' hmi hg
    by_cases hmj : m = j
    · subst hmj
      obtain ⟨own, ho'⟩ := hj
      rw [ho'] at hg
      cases hg
      exact hnd
    · rw [hm m hmj] at hg
      exact ho.1 m nd' hmi hg
  cases e with
  | create j k s x =>
    have hk := ho.2 j k s x (by simp)
    unfold step createNode
    cases s with
    | none => exact ⟨rfl, hset _ j ⟨k, x⟩ hk (fun m hm => Dict.get?_set_ne _ _ (Ne.symm hm)) ⟨x, Dict.get?_set_self _ _ _⟩⟩
    | some s => exact ⟨seedNode_glob G w j (nd := ⟨k, x⟩) hk s, hset _ j ⟨k, x⟩ hk (fun m hm => seedNode_get_ne G w (Ne.symm hm) _ _) (seedNode_get G w j ⟨k, x⟩ s)⟩
  | setSeed j s =>
    unfold step
    dsimp only
    cases hg : w.nodes.get? j with
    | none => exact ⟨rfl, ho.1, hes⟩
    | some nd =>
      have hk := ho.1 j nd he hg
      exact ⟨seedNode_glob G w j hk s, hset _ j nd hk (fun m hm => seedNode_get_ne G w (Ne.symm hm) _ _) (seedNode_get G w j nd s)⟩
  | sample j params n info =>
    unfold step
    dsimp only
    cases hg : w.nodes.get? j with
    | none => exact ⟨rfl, ho.1, hes⟩
    | some nd =>
      have hk := ho.1 j nd he hg
      exact ⟨compute_glob G.toRStream hk _ _ _ _ _, hset _ j nd hk (fun m hm => Dict.get?_set_ne _ _ (Ne.symm hm)) ⟨_, Dict.get?_set_self _ _ _⟩⟩

theorem given_bilby (G : Gen ρ U) (i : Nat) (prior : List (Name × (U → ℝ))) : ∀ (es : List (Event ρ U)) (w : World ρ U) (own : ρ), w.nodes.get? i = some ⟨.bilby prior, own⟩ →
    LeavesAlone i es → NoExplicit i es → OnlyBilby i w es → given i (run G w es) = replayBilby G.toRStream prior w.bilby (asked i es)
  | [], _, _, _, _, _, _ => rfl
  | e :: es, w, own, hw, ha, hx, ho => by
    have hx' : NoExplicit i es := fun p n g hm => hx p n g (by simp [hm])
    have ha' : LeavesAlone i es := fun e' h' => ha e' (by simp [h'])
    have hne := ha e (by simp)
    have other : ∀ (hj : target e ≠ i),
        given i (run G (step G w e).1 es) = replayBilby G.toRStream prior w.bilby (asked i es) := by
      intro hj
      obtain ⟨k1, k2⟩ := other_glob G w e es ho hj
      rw [given_bilby G i prior es _ own ((step_other G w e hj).trans hw) ha' hx' k2, k1]
    cases e with
    | create j kk s x =>
      have hj : j ≠ i := by rintro rfl; exact hne.1 kk s x rfl
      exact other hj
    | setSeed j s =>
      have hj : j ≠ i := by rintro rfl; exact hne.2 s rfl
      exact other hj
    | sample j params n info =>
      by_cases hj : j = i
      · subst hj
        cases info with
        | some g => exact absurd (by simp) (hx params n g)
        | none =>
          have hstep : step G w (.sample j params n none) =
              ({ nodes := w.nodes.set j ⟨.bilby prior, own⟩, bilby := (bilbyCompute G.toRStream prior n w.bilby none).1 },
                some (j, .outs (bilbyCompute G.toRStream prior n w.bilby none).2.2)) := by
            unfold step
            dsimp only
            rw [hw]
            rfl
          rw [run_cons, hstep, given_cons, if_pos rfl, asked_cons, if_pos rfl]
          unfold replayBilby
          congr 1
          refine given_bilby G j prior es _ own (Dict.get?_set_self _ _ _) ha' hx' ⟨?_, fun j k s x h => ho.2 j k s x (by simp [h])⟩
          intro m nd hm hg
          dsimp only at hg
          rw [Dict.get?_set_ne _ _ (Ne.symm hm)] at hg
          exact ho.1 m nd hm hg
      · have h3 : asked i (.sample j params n info :: es) = asked i es := by
          cases info with
          | none => rw [asked_cons, if_neg hj]
          | some g => rfl
        have h2 : given i (run G w (.sample j params n info :: es)) = given i (run G (step G w (.sample j params n info)).1 es) := by
          cases info with
          | some g => rfl
          | none =>
            rw [run_cons]
            cases hr : (step G w (.sample j params n none)).2 with
            | none => rfl
            | some q =>
              obtain ⟨a, b⟩ := q
              rw [given_cons, if_neg hj]
        rw [h2, h3]
        exact other hj

/-- C116. A bilby node does so when it is the only bilby node of the session and is not sampled with an explicit generator. -/
theorem C116_bilby_partial (G : Gen ρ U) (i s : Nat) (prior : List (Name × (U → ℝ))) (w₁ w₂ : World ρ U) (own₁ own₂ : ρ) (h₁ : w₁.nodes.get? i = some ⟨.bilby prior, own₁⟩)
    (h₂ : w₂.nodes.get? i = some ⟨.bilby prior, own₂⟩) (es₁ es₂ : List (Event ρ U)) (ha₁ : LeavesAlone i es₁) (ha₂ : LeavesAlone i es₂)
    (hx₁ : NoExplicit i es₁) (hx₂ : NoExplicit i es₂) (ho₁ : OnlyBilby i w₁ es₁) (ho₂ : OnlyBilby i w₂ es₂) (hsame : asked i es₁ = asked i es₂) :
    given i (run G (after G w₁ [.setSeed i s]) es₁) = given i (run G (after G w₂ [.setSeed i s]) es₂) := by
  have key : ∀ (w : World ρ U) (own : ρ) (es : List (Event ρ U)), w.nodes.get? i = some ⟨.bilby prior, own⟩ → OnlyBilby i w es →
      (after G w [.setSeed i s]).nodes.get? i = some ⟨.bilby prior, own⟩ ∧ (after G w [.setSeed i s]).bilby = G.seeded s ∧ OnlyBilby i (after G w [.setSeed i s]) es := by
    intro w own es h ho
    unfold after after step
    dsimp only
    rw [h]
    refine ⟨Dict.get?_set_self _ _ _, rfl, ?_, ho.2⟩
    intro m nd hm hg
    rw [seedNode_get_ne G w (Ne.symm hm)] at hg
    exact ho.1 m nd hm hg
  obtain ⟨a1, a2, a3⟩ := key w₁ own₁ es₁ h₁ ho₁
  obtain ⟨b1, b2, b3⟩ := key w₂ own₂ es₂ h₂ ho₂
  rw [given_bilby G i prior es₁ _ _ a1 ha₁ hx₁ a3, given_bilby G i prior es₂ _ _ b1 ha₂ hx₂ b3, a2, b2, hsame]

/-- Two bilby nodes with one parameter each. -/
def priorA : Kind Nat := .bilby [("a".toList, fun u => (u : ℝ))]
def priorB : Kind Nat := .bilby [("b".toList, fun u => (u : ℝ))]

/-- C116 fails for bilby nodes: sampling another bilby node in between, or making another one with a seed, changes the values of the seeded node. -/
theorem C116_bilby_counterexample :
    given 0 (run counter (after counter (session [priorA, priorB]) [.setSeed 0 7]) [.sample 0 [] 1 none]) = [.outs [("a".toList, .one 700)]] ∧
    given 0 (run counter (after counter (session [priorA, priorB]) [.setSeed 0 7]) [.sample 1 [] 1 none, .sample 0 [] 1 none]) = [.outs [("a".toList, .one 701)]] ∧
    given 0 (run counter (after counter (session [priorA]) [.setSeed 0 7]) [.create 1 priorB (some 2) 0, .sample 0 [] 1 none]) = [.outs [("a".toList, .one 200)]] := by
  refine ⟨?_, ?_, ?_⟩
  · have : given 0 (run counter (after counter (session [priorA, priorB]) [.setSeed 0 7]) [.sample 0 [] 1 none]) = [.outs [("a".toList, .one ((700 : ℕ) : ℝ))]] := rfl
    simpa using this
  · have : given 0 (run counter (after counter (session [priorA, priorB]) [.setSeed 0 7]) [.sample 1 [] 1 none, .sample 0 [] 1 none]) = [.outs [("a".toList, .one ((701 : ℕ) : ℝ))]] := rfl
    simpa using this
  · have : given 0 (run counter (after counter (session [priorA]) [.setSeed 0 7]) [.create 1 priorB (some 2) 0, .sample 0 [] 1 none]) = [.outs [("a".toList, .one ((200 : ℕ) : ℝ))]] := rfl
    simpa using this

end LCL.SeedProps
