import Verif.Model.InPlacePorts
import Verif.Props.InPlace
import Verif.Proof.M0.Fips202
import Verif.Proof.X4.Fips202
import Verif.Proof.Avx.AesNi
/-!
# C27 for the AVX2, Cortex-M0 and four-fold implementations
-/
namespace Saber.Props
open Spec

/-- C27: AES-256 in counter mode with AES-NI; the key may overlap the output in any way. -/
theorem C27_in_place_aesni (mem : List Byte) (outOff outlen keyOff : Nat) (ho : outOff + outlen ≤ mem.length) (hk : keyOff + 32 ≤ mem.length)
    (hl : outlen ≤ 2 ^ 36) :
    ∃ mem', InPlace.aesni_prf mem outOff outlen keyOff = .ok mem' ∧
      Replaced mem mem' outOff outlen (Aes.ctr ((mem.drop keyOff).take 32) (List.replicate 12 0) outlen) := by
  refine ⟨_, Avx.AesNi.prf_ok mem outOff outlen mem keyOff ho hk hl, replaced_writeAt _ _ _ _ ?_ ho⟩
  rw [← U.Aes.ctrFrom_zero, U.Aes.length_ctrFrom _ _ _ _ (by simp; omega)]

/-- C27: the Cortex-M0 port, with whatever permutation is linked (the digest is that of the sponge with this permutation; the assembly of the port is a case, C53). -/
theorem C27_in_place_m0 [Keccak.Permutation] [StatePermute] [Permutes] (mem : List Byte) (outOff inOff inlen outlen : Nat) (hi : inOff + inlen ≤ mem.length) :
    (outOff + 32 ≤ mem.length → ∃ mem', InPlace.m0_sha3_256 mem outOff inOff inlen = .ok mem' ∧
      Replaced mem mem' outOff 32 (Keccak.sha3_256 ((mem.drop inOff).take inlen))) ∧
    (outOff + outlen ≤ mem.length → ∃ mem', InPlace.m0_shake128 mem outOff outlen inOff inlen = .ok mem' ∧
      Replaced mem mem' outOff outlen (Keccak.shake128 ((mem.drop inOff).take inlen) outlen)) :=
  ⟨fun h => ⟨_, M0.sha3_256_m0 mem outOff mem inOff inlen h hi, replaced_writeAt _ _ _ _ (length_sha3_256 _) h⟩,
    fun h => ⟨_, M0.shake128_m0 mem outOff outlen mem inOff inlen h hi, replaced_writeAt _ _ _ _ (length_shake128 _ _) h⟩⟩

/-- C27: four hashes at once, each in place.  The statement about `shake128x4` is for local arrays of the right size (the code declares them too small: C62). -/
theorem C27_in_place_x4 (mem : X4.Fam (List Byte)) (outOff inOff : X4.Fam Nat) (inlen outlen : Nat) (hi : ∀ l, inOff l + inlen ≤ (mem l).length) :
    ((∀ l, outOff l + 32 ≤ (mem l).length) → ∃ mem', InPlace.sha3_256x4 mem outOff inOff inlen = .ok mem' ∧
      ∀ l, Replaced (mem l) (mem' l) (outOff l) 32 (Keccak.sha3_256 (((mem l).drop (inOff l)).take inlen))) ∧
    ((∀ l, outOff l + outlen ≤ (mem l).length) → ∃ mem', InPlace.shake128x4 168 mem outOff outlen inOff inlen = .ok mem' ∧
      ∀ l, Replaced (mem l) (mem' l) (outOff l) outlen (Keccak.shake128 (((mem l).drop (inOff l)).take inlen) outlen)) :=
  ⟨fun h => ⟨_, X4.sha3_256x4_ok mem outOff mem inOff inlen h hi, fun l => replaced_writeAt _ _ _ _ (length_sha3_256 _) (h l)⟩,
    fun h => ⟨_, X4.shake128x4With_ok mem outOff outlen mem inOff inlen h hi, fun l => replaced_writeAt _ _ _ _ (length_shake128 _ _) (h l)⟩⟩

/-- C27: the calls in place in the models of the AVX2, Cortex-M0 and four-fold KEM are calls of the functions on one object. -/
theorem C27_calls_ports (mem : List Byte) (outOff outlen inOff inlen : Nat) :
    Avx.AesNi.saber_aes256ctr_prf mem outOff outlen mem inOff = InPlace.aesni_prf mem outOff outlen inOff ∧
    (∀ [StatePermute], M0.shake128 mem outOff outlen mem inOff inlen = InPlace.m0_shake128 mem outOff outlen inOff inlen) ∧
    (∀ [StatePermute], M0.sha3_256 mem outOff mem inOff inlen = InPlace.m0_sha3_256 mem outOff inOff inlen) ∧
    (∀ (f : X4.Fam (List Byte)) (oOff iOff : X4.Fam Nat) (tSize : Nat),
      X4.shake128x4With tSize f oOff outlen f iOff inlen = InPlace.shake128x4 tSize f oOff outlen iOff inlen ∧
      X4.sha3_256x4 f oOff f iOff inlen = InPlace.sha3_256x4 f oOff iOff inlen) :=
  ⟨rfl, rfl, rfl, fun _ _ _ _ => ⟨rfl, rfl⟩⟩

/-- The hypotheses are met by the calls of the code: `prf(seed, 32, seed, 32)`, `sha3_256(buf, buf, 32)` with a buffer of 64 bytes, and four seeds at once. -/
example (seed buf : List Byte) (seeds : X4.Fam (List Byte)) (h : seed.length = 32) (hb : buf.length = 64) (hs : ∀ l, (seeds l).length = 32) :
    (∃ m, InPlace.aesni_prf seed 0 32 0 = .ok m ∧ m = Aes.ctr seed (List.replicate 12 0) 32) ∧
    (∃ m, InPlace.m0_sha3_256 buf 0 0 32 = .ok m ∧ m.drop 32 = buf.drop 32) ∧
    (∃ m, InPlace.shake128x4 168 seeds (fun _ => 0) 32 (fun _ => 0) 32 = .ok m ∧ ∀ l, m l = Keccak.shake128 (seeds l) 32) := by
  refine ⟨?_, ?_, ?_⟩
  · obtain ⟨m, e, l, d, _⟩ := C27_in_place_aesni seed 0 32 0 (by omega) (by omega) (by norm_num)
    refine ⟨m, e, ?_⟩
    rwa [List.drop_zero, List.drop_zero, List.take_of_length_le (by omega), List.take_of_length_le (by omega)] at d
  · obtain ⟨m, e, _, _, _, d⟩ := (C27_in_place_m0 buf 0 0 32 0 (by omega)).1 (by omega)
    exact ⟨m, e, by simpa only [Nat.zero_add] using d⟩
  · obtain ⟨m, e, d⟩ := (C27_in_place_x4 seeds (fun _ => 0) (fun _ => 0) 32 32 (fun l => by rw [hs l])).2 (fun l => by rw [hs l])
    refine ⟨m, e, fun l => ?_⟩
    obtain ⟨l', d, _⟩ := d l
    rwa [List.drop_zero, List.drop_zero, List.take_of_length_le (by rw [l', hs]), List.take_of_length_le (by rw [hs])] at d

end Saber.Props
