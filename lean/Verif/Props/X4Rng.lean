import Verif.Props.Rng
import Verif.Model.X4.Rng
/-!
# Property C67: the five generators of SaberX4's `rng.c`

SaberX4's random number file has five entry points, `randombytes` and `randombytes0` … `randombytes3`.  For every seed, every block
cipher and every interleaving of requests, each entry point answers exactly as a stand-alone CTR_DRBG seeded with the common seed
would answer the requests made to it alone.  So the entry points do not disturb each other, and they are not independent sources:
two of them that get the same requests return the same bytes.
-/
namespace Saber.Props
open Spec Spec.Drbg

/-- A program that makes the requests of a history in order: entry point and number of bytes, each into a fresh array. -/
def gensRun (E : Cipher) (g : X4.Gens) : List (Fin 5 × Nat) → CM (List (Fin 5 × List Byte) × X4.Gens)
  | [] => .ok ([], g)
  | (k, n) :: rest => do
    let (x, g) ← X4.generator k E (List.replicate n 0) 0 n g
    let (outs, g) ← gensRun E g rest
    pure ((k, x) :: outs, g)

/-- The part of a history that concerns entry point `k`. -/
def only {α : Type} (k : Fin 5) (h : List (Fin 5 × α)) : List α := (h.filter fun p => p.1 = k).map Prod.snd

/-- The state used by an entry point. -/
def genState (g : X4.Gens) : Fin 5 → DRBG
  | 0 => g.ctx
  | 1 => g.ctx0
  | 2 => g.ctx1
  | 3 => g.ctx2
  | 4 => g.ctx3

/-- An entry point uses its own state and leaves the others alone. -/
theorem generator_eq (k : Fin 5) (E : Cipher) (x : List Byte) (off n : Nat) (g : X4.Gens) (x' : List Byte) (c : DRBG)
    (h : randombytes E x off n (genState g k) = .ok (x', c)) :
    ∃ g', X4.generator k E x off n g = .ok (x', g') ∧ genState g' k = c ∧ ∀ l, l ≠ k → genState g' l = genState g l := by
  fin_cases k
  all_goals
    dsimp only [genState] at h
    refine ⟨_, by
      simp only [X4.generator, X4.randombytes, X4.randombytes0, X4.randombytes1, X4.randombytes2, X4.randombytes3]
      rw [h, ok_bind]; rfl, rfl, ?_⟩
    intro l hl
    fin_cases l <;> first | rfl | exact absurd rfl hl

theorem gensRun_ok {E : Cipher} (hE : IsCipher E) (h : List (Fin 5 × Nat)) : ∀ (g : X4.Gens),
    (∀ k, (genState g k).Key.length = 32 ∧ (genState g k).V.length = 16 ∧ 0 ≤ (genState g k).reseed_counter ∧
      (genState g k).reseed_counter + (only k h).length ≤ 2147483647) → (∀ p ∈ h, p.2 < 2147483648) →
    ∃ outs g', gensRun E g h = .ok (outs, g') ∧ ∀ k, only k outs = (run E (stateOf (genState g k)) (only k h)).1 ∧
      (genState g' k).Key.length = 32 ∧ (genState g' k).V.length = 16 ∧
      stateOf (genState g' k) = (run E (stateOf (genState g k)) (only k h)).2 ∧
      (genState g' k).reseed_counter = (genState g k).reseed_counter + (only k h).length := by
  induction h with
  | nil => intro g hg _; exact ⟨[], g, rfl, fun k => ⟨rfl, (hg k).1, (hg k).2.1, rfl, by simp [only]⟩⟩
  | cons p rest ih =>
    intro g hg hn
    obtain ⟨j, n⟩ := p
    have hself : only j ((j, n) :: rest) = n :: only j rest := by simp [only]
    have hother : ∀ k, k ≠ j → only k ((j, n) :: rest) = only k rest := by
      intro k hk; simp [only, Ne.symm hk]
    obtain ⟨hk, hv, h0, hr⟩ := hg j
    rw [hself, List.length_cons, Nat.cast_add, Nat.cast_one] at hr
    obtain ⟨x, c, h1, hl, hx, _, _, hk1, hv1, hs1, hc1⟩ := C31_randombytes hE (List.replicate n 0) 0 n (genState g j) hk hv h0
      (by omega) (hn (j, n) (by simp)) (by simp)
    rw [List.length_replicate] at hl
    rw [List.drop_zero, List.take_of_length_le (by omega)] at hx
    obtain ⟨g1, hg1, hj1, ho1⟩ := generator_eq j E _ 0 n g x c h1
    obtain ⟨outs, g2, h2, hall⟩ := ih g1 (by
      intro k
      by_cases hkj : k = j
      · subst hkj
        rw [hj1]
        exact ⟨hk1, hv1, by omega, by rw [hc1]; omega⟩
      · rw [ho1 k hkj]
        have := hg k
        rw [hother k hkj] at this
        exact this) (fun q hq => hn q (by simp [hq]))
    refine ⟨(j, x) :: outs, g2, ?_, ?_⟩
    · unfold gensRun
      rw [hg1, ok_bind]
      dsimp only
      rw [h2, ok_bind]
      rfl
    · intro k
      obtain ⟨a1, a2, a3, a4, a5⟩ := hall k
      by_cases hkj : k = j
      · subst hkj
        rw [hj1] at a1 a4 a5
        rw [hs1] at a1 a4
        have e : only k ((k, x) :: outs) = x :: only k outs := by simp [only]
        rw [hself, e, a1, hx]
        refine ⟨rfl, a2, a3, by rw [a4]; rfl, ?_⟩
        rw [a5, hc1, List.length_cons]; push_cast; omega
      · rw [ho1 k hkj] at a1 a4 a5
        have e : only k ((j, x) :: outs) = only k outs := by simp [only, Ne.symm hkj]
        rw [hother k hkj, e]
        exact ⟨a1, a2, a3, a4, a5⟩

/-- Initialisation puts every generator into the state of the reference generator with the same seed. -/
theorem x4_init_ok {E : Cipher} (hE : IsCipher E) (entropy : List Byte) (he : entropy.length = 48) (pers : Option (List Byte))
    (hp : ∀ d, pers = some d → d.length = 48) (g : X4.Gens)
    (hg : ∀ k, (genState g k).Key.length = 32 ∧ (genState g k).V.length = 16) :
    ∃ g0, X4.randombytes_init E entropy pers g = .ok g0 ∧ ∀ k, randombytes_init E entropy pers (genState g k) = .ok (genState g0 k) := by
  have key : ∀ k, ∃ c, randombytes_init E entropy pers (genState g k) = .ok c := fun k => by
    obtain ⟨c, h, _⟩ := C31_init hE entropy he pers hp (genState g k) (hg k).1 (hg k).2
    exact ⟨c, h⟩
  have split : ∀ ctx, randombytes_init E entropy pers ctx = (do
      let sm ← memcpy (uninit 8 71 48) 0 entropy 0 48
      let sm ← xorData sm pers
      X4.initCtx E sm ctx) := fun _ => rfl
  unfold X4.randombytes_init
  cases h1 : memcpy (uninit 8 71 48) 0 entropy 0 48 with
  | error e =>
    obtain ⟨c, hc⟩ := key 0
    rw [split, h1] at hc
    cases hc
  | ok sm =>
    rw [ok_bind]
    cases h2 : xorData sm pers with
    | error e =>
      obtain ⟨c, hc⟩ := key 0
      rw [split, h1, ok_bind, h2] at hc
      cases hc
    | ok sm2 =>
      rw [ok_bind]
      have each : ∀ ctx, randombytes_init E entropy pers ctx = X4.initCtx E sm2 ctx := fun ctx => by
        rw [split, h1, ok_bind, h2, ok_bind]
      simp only [each] at key ⊢
      obtain ⟨c, hc⟩ := key 0
      obtain ⟨c0, hc0⟩ := key 1
      obtain ⟨c1, hc1⟩ := key 2
      obtain ⟨c2, hc2⟩ := key 3
      obtain ⟨c3, hc3⟩ := key 4
      dsimp only [genState] at hc hc0 hc1 hc2 hc3
      refine ⟨⟨c, c0, c1, c2, c3⟩, ?_, ?_⟩
      · rw [hc, hc0, hc1, hc2, hc3]; rfl
      · intro k; fin_cases k
        · exact hc
        · exact hc0
        · exact hc1
        · exact hc2
        · exact hc3

/-- C67: for every seed and every interleaving of requests to the five entry points, each entry point returns what a stand-alone
CTR_DRBG instantiated with the seed returns for its own requests; nothing is undefined as long as no entry point is asked more than
`2^31 - 2` times or for `2^31` bytes at once. -/
theorem C67_interleaving {E : Cipher} (hE : IsCipher E) (entropy : List Byte) (he : entropy.length = 48) (pers : Option (List Byte))
    (hp : ∀ d, pers = some d → d.length = 48) (g : X4.Gens)
    (hg : ∀ k, (genState g k).Key.length = 32 ∧ (genState g k).V.length = 16)
    (h : List (Fin 5 × Nat)) (hlen : ∀ k, (only k h).length ≤ 2 ^ 31 - 2) (hn : ∀ p ∈ h, p.2 < 2 ^ 31) :
    ∃ g0 outs g', X4.randombytes_init E entropy pers g = .ok g0 ∧ gensRun E g0 h = .ok (outs, g') ∧
      ∀ k, only k outs = (run E (instantiate E entropy (pers.getD (List.replicate 48 0))) (only k h)).1 := by
  obtain ⟨g0, h0, hk0⟩ := x4_init_ok hE entropy he pers hp g hg
  have hi : ∀ k, (genState g0 k).Key.length = 32 ∧ (genState g0 k).V.length = 16 ∧ (genState g0 k).reseed_counter = 1 ∧
      stateOf (genState g0 k) = instantiate E entropy (pers.getD (List.replicate 48 0)) := fun k => by
    obtain ⟨c, h1, h2⟩ := C31_init hE entropy he pers hp (genState g k) (hg k).1 (hg k).2
    rw [hk0 k] at h1
    obtain rfl := Except.ok.inj h1
    exact h2
  obtain ⟨outs, g', h1, h2⟩ := gensRun_ok hE h g0 (fun k => by
    obtain ⟨a, b, c, _⟩ := hi k
    have := hlen k
    exact ⟨a, b, by omega, by omega⟩) hn
  refine ⟨g0, outs, g', h0, h1, fun k => ?_⟩
  rw [(h2 k).1, (hi k).2.2.2]

/-- C67: two entry points that get the same requests return the same bytes, whatever the other requests are and however they are
interleaved. -/
theorem C67_not_independent {E : Cipher} (hE : IsCipher E) (entropy : List Byte) (he : entropy.length = 48)
    (pers : Option (List Byte)) (hp : ∀ d, pers = some d → d.length = 48) (g : X4.Gens)
    (hg : ∀ k, (genState g k).Key.length = 32 ∧ (genState g k).V.length = 16)
    (h : List (Fin 5 × Nat)) (hlen : ∀ k, (only k h).length ≤ 2 ^ 31 - 2) (hn : ∀ p ∈ h, p.2 < 2 ^ 31)
    (j k : Fin 5) (hjk : only j h = only k h) :
    ∃ g0 outs g', X4.randombytes_init E entropy pers g = .ok g0 ∧ gensRun E g0 h = .ok (outs, g') ∧ only j outs = only k outs := by
  obtain ⟨g0, outs, g', h0, h1, h2⟩ := C67_interleaving hE entropy he pers hp g hg h hlen hn
  exact ⟨g0, outs, g', h0, h1, by rw [h2 j, h2 k, hjk]⟩

/-- C67: SaberX4's `randombytes` gives the bytes of the reference `randombytes`, whatever the other four entry points are asked for
in between. -/
theorem C67_as_reference {E : Cipher} (hE : IsCipher E) (entropy : List Byte) (he : entropy.length = 48)
    (pers : Option (List Byte)) (hp : ∀ d, pers = some d → d.length = 48) (g : X4.Gens) (ctx : DRBG)
    (hg : ∀ k, (genState g k).Key.length = 32 ∧ (genState g k).V.length = 16) (hk : ctx.Key.length = 32) (hv : ctx.V.length = 16)
    (h : List (Fin 5 × Nat)) (hlen : ∀ k, (only k h).length ≤ 2 ^ 31 - 2) (hn : ∀ p ∈ h, p.2 < 2 ^ 31) :
    ∃ g0 outs g' c0 r, X4.randombytes_init E entropy pers g = .ok g0 ∧ gensRun E g0 h = .ok (outs, g') ∧
      randombytes_init E entropy pers ctx = .ok c0 ∧ drbgRun E c0 (only 0 h) = .ok (only 0 outs, r) := by
  obtain ⟨g0, outs, g', h0, h1, h2⟩ := C67_interleaving hE entropy he pers hp g hg h hlen hn
  obtain ⟨c0, r, h3, h4, _⟩ := C32_history hE entropy he pers hp ctx hk hv (only 0 h) (hlen 0) (by
    intro n hm
    obtain ⟨p, hp1, rfl⟩ := List.mem_map.mp hm
    exact hn p (List.mem_of_mem_filter hp1))
  exact ⟨g0, outs, g', c0, r, h0, h1, h3, by rw [h4, h2 0]⟩

/-! ### The hypotheses are met -/

/-- The states after program start: static storage, so zero. -/
def zeroGens : X4.Gens :=
  let c : DRBG := ⟨List.replicate 32 0, List.replicate 16 0, 0⟩
  ⟨c, c, c, c, c⟩

theorem zeroGens_ok (k : Fin 5) : (genState zeroGens k).Key.length = 32 ∧ (genState zeroGens k).V.length = 16 := by
  fin_cases k <;> exact ⟨rfl, rfl⟩

/-- An instance: `randombytes1` and `randombytes2` are asked for 32 and 5 bytes each, interleaved with another request. -/
example : ∃ g0 outs g', X4.randombytes_init toyCipher (List.replicate 48 7) none zeroGens = .ok g0 ∧
    gensRun toyCipher g0 [(2, 32), (3, 32), (0, 17), (3, 5), (2, 5)] = .ok (outs, g') ∧ only 2 outs = only 3 outs :=
  C67_not_independent toyCipher_ok (List.replicate 48 7) (by simp) none (by simp) zeroGens zeroGens_ok _
    (by decide) (by decide) 2 3 (by decide)

/-- The outputs of the instance are not trivial: they have the lengths that were asked for. -/
example : (do
    let g0 ← X4.randombytes_init toyCipher (List.replicate 48 7) none zeroGens
    let r ← gensRun toyCipher g0 [(2, 32), (3, 32), (0, 17), (3, 5), (2, 5)]
    pure (r.1.map fun p => (p.1, p.2.length)) : CM (List (Fin 5 × Nat))) =
    .ok [(2, 32), (3, 32), (0, 17), (3, 5), (2, 5)] := by decide +kernel

end Saber.Props
