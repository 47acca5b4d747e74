import Verif.Model.InPlace
import Verif.Props.Hash
import Verif.Proof.U.Poly
/-!
# C27: hashing in place

In `Verif.Model.InPlace` the input and the output of a hash function are parts of one object.
-/
namespace Saber.Props
open Spec

/-- `after` is `before` with the `n` bytes from offset `off` on replaced by `d`. -/
def Replaced (before after : List Byte) (off n : Nat) (d : List Byte) : Prop :=
  after.length = before.length ∧ (after.drop off).take n = d ∧ after.take off = before.take off ∧ after.drop (off + n) = before.drop (off + n)

theorem replaced_writeAt (mem d : List Byte) (off n : Nat) (hd : d.length = n) (h : off + n ≤ mem.length) :
    Replaced mem (writeAt mem off d) off n d := by
  subst hd
  exact ⟨length_writeAt _ _ _ (by omega), writeAt_read _ _ _ (by omega), writeAt_take _ _ _ (by omega), writeAt_drop _ _ _ (by omega)⟩

/-- C27: the three functions of `fips202.c` with input and output in the same object, overlapping in any way: the output is the digest of what the input was before the
call, and nothing else changes. -/
theorem C27_in_place (mem : List Byte) (outOff inOff inlen outlen : Nat) (hi : inOff + inlen ≤ mem.length) :
    (outOff + 32 ≤ mem.length → ∃ mem', InPlace.sha3_256 mem outOff inOff inlen = .ok mem' ∧
      Replaced mem mem' outOff 32 (Keccak.sha3_256 ((mem.drop inOff).take inlen))) ∧
    (outOff + 64 ≤ mem.length → ∃ mem', InPlace.sha3_512 mem outOff inOff inlen = .ok mem' ∧
      Replaced mem mem' outOff 64 (Keccak.sha3_512 ((mem.drop inOff).take inlen))) ∧
    (outOff + outlen ≤ mem.length → ∃ mem', InPlace.shake128 mem outOff outlen inOff inlen = .ok mem' ∧
      Replaced mem mem' outOff outlen (Keccak.shake128 ((mem.drop inOff).take inlen) outlen)) :=
  ⟨fun h => C24_sha3_256 mem outOff mem inOff inlen h hi, fun h => C24_sha3_512 mem outOff mem inOff inlen h hi,
    fun h => C25_shake128 mem outOff outlen mem inOff inlen h hi⟩

/-- C27: the same for the functions `prf`, `hash_h` and `hash_g` of uSaber and the 90s variants, which are AES-256 in counter mode, SHA-256 and SHA-512 in the latter. -/
theorem C27_in_place_variants (c : U.Cfg) (mem : List Byte) (outOff inOff inlen outlen : Nat) (hlen : inlen < 2 ^ 61) (hi : inOff + inlen ≤ mem.length) :
    (outOff + 32 ≤ mem.length → ∃ mem', InPlace.hash_h c mem outOff inOff inlen = .ok mem' ∧
      Replaced mem mem' outOff 32 (c.sym.H ((mem.drop inOff).take inlen))) ∧
    (outOff + 64 ≤ mem.length → ∃ mem', InPlace.hash_g c mem outOff inOff inlen = .ok mem' ∧
      Replaced mem mem' outOff 64 (c.sym.G ((mem.drop inOff).take inlen))) ∧
    (outOff + outlen ≤ mem.length → inlen = 32 → ∃ mem', InPlace.prf c mem outOff outlen inOff inlen = .ok mem' ∧
      Replaced mem mem' outOff outlen (c.sym.prf ((mem.drop inOff).take inlen) outlen)) := by
  refine ⟨fun h => ⟨_, ?_, replaced_writeAt _ _ _ _ (U.length_H c _) h⟩, fun h => ⟨_, ?_, replaced_writeAt _ _ _ _ (U.length_G c _) h⟩,
    fun h h32 => ?_⟩
  · exact U.hash_h_ok c mem outOff mem inOff inlen h hi hlen
  · exact U.hash_g_ok c mem outOff mem inOff inlen h hi hlen
  · subst h32
    exact ⟨_, U.prf_ok c mem outOff outlen mem inOff h hi, replaced_writeAt _ _ _ _ (U.length_prf c _ _ (by simp; omega)) h⟩

/-- C27: the calls in place in the models of `indcpa_kem_keypair` and `crypto_kem_enc`, where input and output are separate arguments, are calls of the functions on one
object. -/
theorem C27_calls (mem : List Byte) (outOff outlen inOff inlen : Nat) :
    Saber.shake128 mem outOff outlen mem inOff inlen = InPlace.shake128 mem outOff outlen inOff inlen ∧
    Saber.sha3_256 mem outOff mem inOff inlen = InPlace.sha3_256 mem outOff inOff inlen ∧
    Saber.sha3_512 mem outOff mem inOff inlen = InPlace.sha3_512 mem outOff inOff inlen ∧
    (∀ c : U.Cfg, U.prf c mem outOff outlen mem inOff inlen = InPlace.prf c mem outOff outlen inOff inlen) ∧
    (∀ c : U.Cfg, U.hash_h c mem outOff mem inOff inlen = InPlace.hash_h c mem outOff inOff inlen) ∧
    (∀ c : U.Cfg, U.hash_g c mem outOff mem inOff inlen = InPlace.hash_g c mem outOff inOff inlen) :=
  ⟨rfl, rfl, rfl, fun _ => rfl, fun _ => rfl, fun _ => rfl⟩

/-- The hypotheses are met by `sha3_256(buf, buf, 32)` on the 64-byte buffer of `crypto_kem_enc` and by `shake128(seed_A, 32, seed_A, 32)`, and by an output that
starts in the middle of the input. -/
example : (∃ m, InPlace.sha3_256 (List.replicate 64 0xA5) 0 0 32 = .ok m ∧
      m.take 32 = Keccak.sha3_256 (List.replicate 32 0xA5) ∧ m.drop 32 = List.replicate 32 0xA5) ∧
    (∃ m, InPlace.shake128 (List.replicate 32 7) 0 32 0 32 = .ok m ∧ m = Keccak.shake128 (List.replicate 32 7) 32) ∧
    (∃ m, InPlace.shake128 (List.replicate 600 7) 100 500 0 300 = .ok m ∧ m.drop 100 = Keccak.shake128 (List.replicate 300 7) 500) := by
  refine ⟨?_, ?_, ?_⟩
  · obtain ⟨m, e, _, h, _, h2⟩ := (C27_in_place (List.replicate 64 0xA5) 0 0 32 0 (by simp)).1 (by simp)
    refine ⟨m, e, ?_, ?_⟩
    · simpa only [List.drop_zero, List.take_replicate, Nat.reduceLeDiff, min_eq_left] using h
    · simpa only [Nat.zero_add, List.drop_replicate] using h2
  · obtain ⟨m, e, l, h, _⟩ := (C27_in_place (List.replicate 32 7) 0 0 32 32 (by simp)).2.2 (by simp)
    refine ⟨m, e, ?_⟩
    rw [List.drop_zero, List.drop_zero, List.take_of_length_le (by rw [l, List.length_replicate]), List.take_of_length_le (by rw [List.length_replicate])] at h
    exact h
  · obtain ⟨m, e, l, h, _⟩ := (C27_in_place (List.replicate 600 7) 100 0 300 500 (by rw [List.length_replicate]; try omega)).2.2 (by rw [List.length_replicate]; try omega)
    refine ⟨m, e, ?_⟩
    rw [List.take_of_length_le (by rw [List.length_drop, l, List.length_replicate]), List.drop_zero, List.take_replicate] at h
    exact h

end Saber.Props
