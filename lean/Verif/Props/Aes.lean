import Verif.Proof.U.AesCtr
import Verif.Props.Rng
/-!
# C44: AES-256 in counter mode of the 90s variant

The specification is `Verif/Spec/Aes.lean`, a transcription of FIPS 197.
-/
namespace Saber.Props
open Spec.Aes U.Aes

/-- C44: `aes256ctr_prf(out, outlen, key, nonce)` writes the first `outlen` bytes of the key stream of AES-256 in counter mode, for every
key, every nonce and every length, changes nothing else, and never accesses memory outside of its buffers.  The counter is a 32-bit
big-endian number and wraps around after 2^32 blocks (2^36 bytes). -/
theorem C44_prf (out : List Byte) (outOff outlen : Nat) (key : List Byte) (keyOff : Nat) (nonce : List Byte) (nonceOff : Nat)
    (ho : outOff + outlen ≤ out.length) (hk : keyOff + 32 ≤ key.length) (hn : nonceOff + 12 ≤ nonce.length) :
    aes256ctr_prf out outOff outlen key keyOff nonce nonceOff
      = .ok (writeAt out outOff (ctr ((key.drop keyOff).take 32) ((nonce.drop nonceOff).take 12) outlen)) :=
  prf_ok out outOff outlen key keyOff nonce nonceOff ho hk hn

/-- One call of the incremental interface after another: the outputs of `aes256ctr_squeezeblocks` for the given numbers of blocks. -/
def squeezes (s : Ctx) : List Nat → CM (List Byte)
  | [] => pure []
  | n :: ns => do
    let ⟨out, s⟩ ← aes256ctr_squeezeblocks (List.replicate (64 * n) 0) 0 n s
    let rest ← squeezes s ns
    pure (out ++ rest)

theorem squeezes_ok (key nonce : List Byte) (hk : key.length = 32) (hn : nonce.length = 12) (ns : List Nat) : ∀ (c : Nat) (s : Ctx), CtxOk key nonce c s →
    squeezes s ns = .ok (ctrFrom key nonce c (64 * ns.sum)) := by
  induction ns with
  | nil => intro c s _; simp [squeezes, ctrFrom]
  | cons n ns ih =>
    intro c s hs
    obtain ⟨⟨o, s'⟩, e, h1, h2⟩ := U.Aes.squeezeblocks_ok key nonce hk hn (List.replicate (64 * n) 0) 0 n c s hs (by simp)
    dsimp only at h1 h2
    subst h1
    rw [squeezes, e, ok_bind]
    dsimp only
    rw [ih _ _ h2, ok_bind, writeAt_full _ _ (by rw [length_ctrFrom _ _ _ _ hk, List.length_replicate]), List.sum_cons, Nat.mul_add]
    refine congrArg Except.ok ?_
    apply ext_getD 0
    · rw [List.length_append, length_ctrFrom _ _ _ _ hk, length_ctrFrom _ _ _ _ hk, length_ctrFrom _ _ _ _ hk]
    · intro m hm
      rw [List.length_append, length_ctrFrom _ _ _ _ hk, length_ctrFrom _ _ _ _ hk] at hm
      rw [getD_ctrFrom _ _ _ _ _ hk hm]
      by_cases h : m < 64 * n
      · rw [List.getD_append _ _ _ _ (by rw [length_ctrFrom _ _ _ _ hk]; omega), getD_ctrFrom _ _ _ _ _ hk h]
      · rw [List.getD_append_right _ _ _ _ (by rw [length_ctrFrom _ _ _ _ hk]; omega), length_ctrFrom _ _ _ _ hk, getD_ctrFrom _ _ _ _ _ hk (by omega),
          show c + 4 * n + (m - 64 * n) / 16 = c + m / 16 by omega, show (m - 64 * n) % 16 = m % 16 by omega]

/-- C44: after `aes256ctr_init`, any sequence of `aes256ctr_squeezeblocks` calls delivers consecutive pieces of the same key stream. -/
theorem C44_incremental (s : Ctx) (hs1 : s.sk_exp.length = 120) (hs2 : s.ivw.length = 16) (key nonce : List Byte) (hk : key.length = 32)
    (hn : nonce.length = 12) (ns : List Nat) :
    (do
      let s ← aes256ctr_init s key 0 nonce 0
      squeezes s ns) = .ok (ctr key nonce (64 * ns.sum)) := by
  obtain ⟨s', e, h⟩ := init_ok s key 0 nonce 0 hs1 hs2 (by omega) (by omega)
  rw [List.drop_zero, List.drop_zero, List.take_of_length_le (by omega), List.take_of_length_le (by omega)] at h
  rw [e, ok_bind, squeezes_ok key nonce hk hn ns 0 s' h, ctrFrom_zero]

/-- A concrete case of C44: the first 20 bytes for a key and a nonce of consecutive bytes, evaluated on the model of the code. -/
theorem prf_example : (aes256ctr_prf (List.replicate 20 0) 0 20 ((List.range 32).map (BitVec.ofNat 8)) 0 (List.replicate 12 0) 0).toOption = some
    [0xf2, 0x90, 0x00, 0xb6, 0x2a, 0x49, 0x9f, 0xd0, 0xa9, 0xf3, 0x9a, 0x6a, 0xdd, 0x2e, 0x77, 0x80, 0xf0, 0x5d, 0x76, 0xae] := by decide +kernel

/-- The same bytes from the specification. -/
example : ctr ((List.range 32).map (BitVec.ofNat 8)) (List.replicate 12 0) 20 =
    [0xf2, 0x90, 0x00, 0xb6, 0x2a, 0x49, 0x9f, 0xd0, 0xa9, 0xf3, 0x9a, 0x6a, 0xdd, 0x2e, 0x77, 0x80, 0xf0, 0x5d, 0x76, 0xae] := by
  have h := C44_prf (List.replicate 20 0) 0 20 ((List.range 32).map (BitVec.ofNat 8)) 0 (List.replicate 12 0) 0 (by simp) (by simp) (by simp)
  have h2 := prf_example
  rw [h, List.drop_zero, List.drop_zero, List.take_of_length_le (by simp), List.take_of_length_le (by simp),
    writeAt_full _ _ (by rw [← ctrFrom_zero, length_ctrFrom _ _ _ _ (by simp), List.length_replicate])] at h2
  exact Option.some.inj h2

example : 2 + 1000 ≤ (List.replicate 1002 (0 : Byte)).length ∧ 5 + 32 ≤ (List.replicate 37 (0 : Byte)).length := by
  rw [List.length_replicate, List.length_replicate]; omega

/-- AES-256 is a block cipher in the sense of the theorems about the deterministic random bit generator (C31-C34). -/
theorem C31_cipher_exists : IsCipher fun k b => aes256 ((k ++ List.replicate 32 0).take 32) b := fun k b => length_aes256 _ _ (by simp)

end Saber.Props
