import Verif.Model.EffectLib
import Verif.Lemmas.EffectAdd

/-!
# Property C91: white noise
-/

namespace LCL.WhiteNoiseProps
open LCL LCL.PhysSpec LCL.PhysicalProps LCL.EffectLib LCL.EffectAdd LCL.RandomNodes
variable {V W ρ : Type}

/-- The generator that is used: the one given as `rng_info`, otherwise a new one started from the entropy of the system. -/
def source (r : Rng ρ) : ρ := r.given.getD r.entropy

/-- The random state after `n` draws: only the generator used moves. -/
def after (G : RStream ρ ℝ) (r : Rng ρ) (n : Nat) : Rng ρ :=
  match r.given with
  | some g => ⟨some (G.adv g n), r.entropy⟩
  | none => ⟨none, G.adv r.entropy n⟩

/-- `b` is the T x N matrix `a` with independent noise: entry (i, j) has scale times the standard normal draw number
i*N + j added. -/
def Noisy (z : Nat → ℝ) (scale : ℝ) (n : Nat) (a b : Mat ℝ) : Prop :=
  b.length = a.length ∧ ∀ (i : Nat) (ra rb : List ℝ), a[i]? = some ra → b[i]? = some rb → rb.length = ra.length ∧
    ∀ (j : Nat) (x y : ℝ), ra[j]? = some x → rb[j]? = some y → y = x + scale * z (i * n + j)

theorem use_eq (G : RStream ρ ℝ) (r : Rng ρ) (n : Nat) : r.use G n = (source r, after G r n) := by
  obtain ⟨g, e⟩ := r
  cases g <;> rfl

theorem row_len (G : RStream ρ ℝ) (g : ρ) (s : ℝ) : ∀ (k : Nat) (row : List ℝ), (noisyRow G g s k row).length = row.length
  | _, [] => rfl
  | k, _ :: row => by simp [noisyRow, row_len G g s (k + 1) row]

theorem row_get (G : RStream ρ ℝ) (g : ρ) (s : ℝ) : ∀ (k : Nat) (row : List ℝ) (j : Nat),
    (noisyRow G g s k row)[j]? = (row[j]?).map fun x => x + s * G.val g (k + j)
  | _, [], j => by simp [noisyRow]
  | k, x :: row, 0 => by simp [noisyRow]
  | k, x :: row, j + 1 => by
    simp only [noisyRow, List.getElem?_cons_succ]
    rw [row_get G g s (k + 1) row j, show k + 1 + j = k + (j + 1) by omega]

theorem rows_len (G : RStream ρ ℝ) (g : ρ) (s : ℝ) : ∀ (k : Nat) (a : Mat ℝ), (noisyRows G g s k a).length = a.length
  | _, [] => rfl
  | k, row :: a => by simp [noisyRows, rows_len G g s (k + row.length) a]

theorem rows_get (G : RStream ρ ℝ) (g : ρ) (s : ℝ) (n : Nat) : ∀ (k : Nat) (a : Mat ℝ) (_ : ∀ row ∈ a, row.length = n) (i : Nat),
    (noisyRows G g s k a)[i]? = (a[i]?).map fun row => noisyRow G g s (k + i * n) row
  | _, [], _, i => by simp [noisyRows]
  | k, row :: a, h, 0 => by simp [noisyRows]
  | k, row :: a, h, i + 1 => by
    simp only [noisyRows, List.getElem?_cons_succ]
    rw [rows_get G g s n (k + row.length) a (fun r hr => h r (List.mem_cons_of_mem _ hr)) i, h row (List.mem_cons_self ..)]
    congr 2
    funext r
    congr 1
    ring

theorem rows_noisy (G : RStream ρ ℝ) (g : ρ) (s : ℝ) (n : Nat) (a : Mat ℝ) (h : ∀ row ∈ a, row.length = n) :
    Noisy (G.val g) s n a (noisyRows G g s 0 a) := by
  refine ⟨rows_len G g s 0 a, ?_⟩
  intro i ra rb ha hb
  rw [rows_get G g s n 0 a h i, ha] at hb
  simp only [Option.map_some, Option.some.injEq] at hb
  subst hb
  refine ⟨row_len G g s _ ra, ?_⟩
  intro j x y hx hy
  rw [row_get, hx] at hy
  simp only [Option.map_some, Option.some.injEq] at hy
  rw [← hy, Nat.zero_add]

theorem sum_len (n : Nat) (a : Mat ℝ) (h : ∀ row ∈ a, row.length = n) : (a.map List.length).sum = a.length * n := by
  induction a with
  | nil => simp
  | cons row a ih =>
    rw [List.map_cons, List.sum_cons, ih (fun r hr => h r (List.mem_cons_of_mem _ hr)), h row (List.mem_cons_self ..), List.length_cons]
    ring

theorem sigma_num {p : Params ℝ} {s : ℝ} (hs : p.get? "white_noise_sigma".toList = some (.num s)) (h0 : 0 ≤ s) : noiseSigma p = .ok s := by
  unfold noiseSigma required sigmaKey
  rw [hs]
  dsimp only
  rw [if_neg (not_lt.2 h0)]

/-- C91, spectra: each entry of a T x N flux array gets sigma times its own standard normal draw, taken in row order from the
generator given (or, without one, from a new one); exactly T*N numbers are drawn. -/
theorem C91_spectra (G : RStream ρ ℝ) (sS : V) (rest : Bool) (p : Params ℝ) (s : ℝ)
    (hs : p.get? "white_noise_sigma".toList = some (.num s)) (h0 : 0 ≤ s) (times waves : List ℝ) (r : Rng ρ) (a : Mat ℝ) (n : Nat)
    (hn : ∀ row ∈ a, row.length = n) :
    ∃ b, (whiteNoise G sS rest).apply p times waves r a = .ok (b, after G r (a.length * n)) ∧ Noisy (G.val (source r)) s n a b := by
  refine ⟨_, ?_, rows_noisy G (source r) s n a hn⟩
  simp only [whiteNoise, sigma_num hs h0, use_eq, sum_len n a hn]

/-- C91, bandfluxes: the same for a list of bandfluxes. -/
theorem C91_bandfluxes (G : RStream ρ ℝ) (sS : V) (rest : Bool) (p : Params ℝ) (s : ℝ)
    (hs : p.get? "white_noise_sigma".toList = some (.num s)) (h0 : 0 ≤ s) (times : List ℝ) (filters : List Name) (r : Rng ρ) (b : List ℝ) :
    ∃ c, (whiteNoise G sS rest).applyBand p times filters r b = .ok (c, after G r b.length) ∧ c.length = b.length ∧
      ∀ (i : Nat) (x y : ℝ), b[i]? = some x → c[i]? = some y → y = x + s * G.val (source r) i := by
  refine ⟨noisyRow G (source r) s 0 b, ?_, row_len _ _ _ _ _, ?_⟩
  · simp only [whiteNoise, sigma_num hs h0, use_eq]
  · intro i x y hx hy
    rw [row_get, hx] at hy
    simp only [Option.map_some, Option.some.injEq] at hy
    rw [← hy, Nat.zero_add]

/-- C91: a missing or negative scale raises ValueError, for spectra and for bandfluxes. -/
theorem C91_invalid (G : RStream ρ ℝ) (sS : V) (rest : Bool) (p : Params ℝ)
    (h : p.get? "white_noise_sigma".toList = none ∨ p.get? "white_noise_sigma".toList = some .none ∨
      ∃ s, s < 0 ∧ p.get? "white_noise_sigma".toList = some (.num s))
    (times waves : List ℝ) (filters : List Name) (r : Rng ρ) (a : Mat ℝ) (b : List ℝ) :
    (whiteNoise G sS rest).apply p times waves r a = .error .valueError ∧
    (whiteNoise G sS rest).applyBand p times filters r b = .error .valueError := by
  have : noiseSigma p = .error .valueError := by
    unfold noiseSigma required sigmaKey
    rcases h with h | h | ⟨s, hs, h⟩
    · rw [h]
    · rw [h]
    · rw [h]; dsimp only; rw [if_pos hs]
  simp only [whiteNoise, this, and_self]

/-- C91, reproducibility: with a generator given, result and final generator do not depend on the entropy of the system; with
none given they do not depend on anything but that entropy. -/
theorem C91_generator (G : RStream ρ ℝ) (sS : V) (rest : Bool) (p : Params ℝ) (times waves : List ℝ) (g e e' : ρ) (a : Mat ℝ) :
    (∀ b r', (whiteNoise G sS rest).apply p times waves ⟨some g, e⟩ a = .ok (b, r') →
      (whiteNoise G sS rest).apply p times waves ⟨some g, e'⟩ a = .ok (b, ⟨r'.given, e'⟩)) ∧
    ∀ b r', (whiteNoise G sS rest).apply p times waves ⟨none, e⟩ a = .ok (b, r') → r'.given = none := by
  constructor
  · intro b r' h
    simp only [whiteNoise] at h ⊢
    cases hs : noiseSigma p with
    | error err => rw [hs] at h; cases h
    | ok s =>
      rw [hs] at h
      simp only [use_eq, source, after, Option.getD_some, Except.ok.injEq, Prod.mk.injEq] at h ⊢
      exact ⟨h.1, by rw [← h.2]⟩
  · intro b r' h
    simp only [whiteNoise] at h
    cases hs : noiseSigma p with
    | error err => rw [hs] at h; cases h
    | ok s =>
      rw [hs] at h
      simp only [use_eq, after, Except.ok.injEq, Prod.mk.injEq] at h
      rw [← h.2]

/-- C91, the scale that is observed: adding white noise to a model without effects gives the noise-free flux with noise of
scale sigma when it is added in the observer frame, and of scale (1+z) sigma when it is added (the default) in the rest frame,
where the flux is scaled by 1+z afterwards. -/
theorem C91_evaluate (G : RStream ρ ℝ) (sS : V) (rest : Bool) (m : SEDModel V W (Rng ρ) ℝ)
    (hm : m.restEffects = [] ∧ m.obsEffects = []) (skip : Bool) (noKw kw : W) (times waves : List ℝ) (st : SState ℝ) (r r' : Rng ρ)
    (p : Params ℝ) (zs : Option (ℝ × ℝ)) (s : ℝ) (a : Mat ℝ) (hp : st.get? m.nodeString = some p) (hz : Frame m.applyRedshift p zs)
    (hs : p.get? "white_noise_sigma".toList = some (.num s)) (h0 : 0 ≤ s)
    (ha : m.evaluateSingle noKw times waves st r kw = .ok (a, r')) (hrows : ∀ row ∈ a, row.length = waves.length) :
    r' = r ∧ ∃ b, (m.addEffect (whiteNoise G sS rest) skip).evaluateSingle noKw times waves st r kw =
        .ok (b, after G r (a.length * waves.length)) ∧
      Noisy (G.val (source r)) (if rest then frameFactor zs * s else s) waves.length a b := by
  have base := evaluate_plain m hm.2 noKw kw times waves st r p hp zs hz
  rw [ha] at base
  cases hsed : m.sedExtrapolated noKw (times.map (frameTime zs)) (waves.map (frameWave zs)) st kw with
  | error err => rw [hsed] at base; cases base
  | ok sed =>
    rw [hsed] at base
    dsimp only at base
    rw [hm.1] at base
    simp only [applyEffects, Except.ok.injEq, Prod.mk.injEq] at base
    obtain ⟨b1, b2⟩ := base
    refine ⟨b2, ?_⟩
    subst b2
    cases rest with
    | false =>
      have key := evaluate_observer m (whiteNoise G sS false) rfl skip noKw kw times waves st r' p hp
      rw [ha] at key
      obtain ⟨b, h1, h2⟩ := C91_spectra G sS false p s hs h0 times waves r' a waves.length hrows
      exact ⟨b, key.trans h1, h2⟩
    | true =>
      have hlen : ∀ row ∈ sed, row.length = waves.length := by
        intro row hrow
        have := hrows (row.map fun x => x * frameFactor zs) (by rw [b1]; exact List.mem_map_of_mem hrow)
        simpa using this
      have key := evaluate_rest m (whiteNoise G sS true) rfl hm.2 skip noKw kw times waves st r' p hp zs hz
      rw [hsed, hm.1] at key
      simp only [applyEffects] at key
      obtain ⟨b, h1, h2, h3⟩ := C91_spectra G sS true p s hs h0 (times.map (frameTime zs)) (waves.map (frameWave zs)) r' sed
        waves.length hlen
      rw [h1] at key
      dsimp only at key
      refine ⟨b.map fun row => row.map fun x => x * frameFactor zs, ?_, ?_, ?_⟩
      · rw [key, b1, List.length_map]
      · rw [b1]; simp [h2]
      · intro i ra rb hra hrb
        rw [b1, List.getElem?_map] at hra
        rw [List.getElem?_map] at hrb
        cases hsi : sed[i]? with
        | none => rw [hsi] at hra; cases hra
        | some ra0 =>
          cases hbi : b[i]? with
          | none => rw [hbi] at hrb; cases hrb
          | some rb0 =>
            rw [hsi] at hra
            rw [hbi] at hrb
            simp only [Option.map_some, Option.some.injEq] at hra hrb
            obtain ⟨h4, h5⟩ := h3 i ra0 rb0 hsi hbi
            subst hra hrb
            refine ⟨by simp [h4], ?_⟩
            intro j x y hx hy
            rw [List.getElem?_map] at hx hy
            cases hx0 : ra0[j]? with
            | none => rw [hx0] at hx; cases hx
            | some x0 =>
              cases hy0 : rb0[j]? with
              | none => rw [hy0] at hy; cases hy
              | some y0 =>
                rw [hx0] at hx
                rw [hy0] at hy
                simp only [Option.map_some, Option.some.injEq] at hx hy
                rw [← hx, ← hy, h5 j x0 y0 hx0 hy0, if_pos rfl]
                ring

/-! ### The hypotheses are met -/

/-- A generator with the draws 0, 1, 2, ... -/
def counting : RStream Nat ℝ := ⟨fun r k => ((r + k : Nat) : ℝ), fun r k => r + k⟩

noncomputable def noiseState : SState ℝ :=
  [("s".toList, [("redshift".toList, .num 1), ("t0".toList, .num 0), ("white_noise_sigma".toList, .num 3)])]

noncomputable def flatSource : SEDModel Unit Unit (Rng Nat) ℝ :=
  ⟨"s".toList, [], fun _ _ ts ws => .ok (ts.map fun _ => ws.map fun _ => 50), fun _ => none, fun _ => none, none, true, [], []⟩

theorem flat_value (r : Rng Nat) : flatSource.evaluateSingle () [5, 7] [4000] noiseState r () = .ok ([[100], [100]], r) := by
  rw [evaluate_plain flatSource rfl () () _ _ _ r _ rfl (some (1, 0)) (.shifted rfl (by norm_num) rfl rfl)]
  simp [SEDModel.sedExtrapolated, flatSource, npMin, npMax, frameFactor, applyEffects]
  norm_num

/-- Rest-frame noise of scale 3 on a source at redshift 1 is observed with scale 6. -/
example : ∃ b, (flatSource.addEffect (whiteNoise counting () true)).evaluateSingle () [5, 7] [4000] noiseState ⟨some 1, 9⟩ () =
      .ok (b, ⟨some 3, 9⟩) ∧
    Noisy (counting.val 1) 6 1 [[100], [100]] b := by
  obtain ⟨-, b, h1, h2⟩ := C91_evaluate counting () true flatSource ⟨rfl, rfl⟩ false () () [5, 7] [4000] noiseState ⟨some 1, 9⟩
    ⟨some 1, 9⟩ _ (some (1, 0)) 3 _ rfl (.shifted rfl (by norm_num) rfl rfl) rfl (by norm_num) (flat_value _) (by simp)
  refine ⟨b, h1, ?_⟩
  have : (if true then frameFactor (some ((1 : ℝ), (0 : ℝ))) * 3 else 3) = 6 := by simp [frameFactor]; norm_num
  rw [this] at h2
  exact h2

end LCL.WhiteNoiseProps
