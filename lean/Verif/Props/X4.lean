import Verif.Proof.X4.Fips202
import Verif.Props.Hash
/-!
# C58, C59: the four-fold hash functions of `Variants/SaberX4_avx2`

A family `x : Fin 4 → _` is the four variables `x0, x1, x2, x3`.
-/
namespace Saber.Props
open Spec X4

/-- `out` is `old` with `bytes` at offset `off`: same length, the bytes are there, and everything before and behind is as before. -/
def Wrote (old : List Byte) (off : Nat) (bytes out : List Byte) : Prop :=
  out.length = old.length ∧ (out.drop off).take bytes.length = bytes ∧ out.take off = old.take off ∧
    out.drop (off + bytes.length) = old.drop (off + bytes.length)

theorem wrote_writeAt {old : List Byte} {off : Nat} {bytes : List Byte} (h : off + bytes.length ≤ old.length) : Wrote old off bytes (writeAt old off bytes) :=
  ⟨length_writeAt _ _ _ h, writeAt_read _ _ _ (by omega), writeAt_take _ _ _ (by omega), writeAt_drop _ _ _ (by omega)⟩

/-- C58: the four-fold permutation applies Keccak-f[1600] to each of the four states; lane `l` of word `i` of the vector state is word `i` of
state `l`. -/
theorem C58_permutation (s : List V256) (hs : s.length = 25) :
    ∃ s', KeccakP1600times4_PermuteAll_24rounds s = .ok s' ∧ s'.length = 25 ∧
      ∀ l, laneBits (s'.map fun v => v l) = Keccak.keccakF (laneBits (s.map fun v => v l)) := by
  obtain ⟨s', e, h1, h2⟩ := permute_ok s hs
  refine ⟨s', e, h1, fun l => ?_⟩
  obtain ⟨t, ht, -, h4⟩ := C23_keccakF (lane l s) (by simpa using hs)
  rw [h2 l] at ht
  cases ht
  exact h4

/-- C58: `sha3_256x4` writes the digests of the four messages and nothing else. -/
theorem C58_sha3_256x4 (out : Fam (List Byte)) (outOff : Fam Nat) (input : Fam (List Byte)) (inOff : Fam Nat) (inlen : Nat)
    (ho : ∀ l, outOff l + 32 ≤ (out l).length) (hi : ∀ l, inOff l + inlen ≤ (input l).length) :
    ∃ out', sha3_256x4 out outOff input inOff inlen = .ok out' ∧
      ∀ l, Wrote (out l) (outOff l) (Keccak.sha3_256 (((input l).drop (inOff l)).take inlen)) (out' l) :=
  ⟨_, sha3_256x4_ok out outOff input inOff inlen ho hi, fun l => wrote_writeAt (by rw [length_sha3_256]; exact ho l)⟩

/-- C58: `sha3_512x4` writes the digests of the four messages and nothing else. -/
theorem C58_sha3_512x4 (out : Fam (List Byte)) (outOff : Fam Nat) (input : Fam (List Byte)) (inOff : Fam Nat) (inlen : Nat)
    (ho : ∀ l, outOff l + 64 ≤ (out l).length) (hi : ∀ l, inOff l + inlen ≤ (input l).length) :
    ∃ out', sha3_512x4 out outOff input inOff inlen = .ok out' ∧
      ∀ l, Wrote (out l) (outOff l) (Keccak.sha3_512 (((input l).drop (inOff l)).take inlen)) (out' l) :=
  ⟨_, sha3_512x4_ok out outOff input inOff inlen ho hi, fun l => wrote_writeAt (by rw [length_sha3_512]; exact ho l)⟩

/-- C58: `shake256x4` writes `outlen` bytes of the four output streams and nothing else. -/
theorem C58_shake256x4 (out : Fam (List Byte)) (outOff : Fam Nat) (outlen : Nat) (input : Fam (List Byte)) (inOff : Fam Nat) (inlen : Nat)
    (ho : ∀ l, outOff l + outlen ≤ (out l).length) (hi : ∀ l, inOff l + inlen ≤ (input l).length) :
    ∃ out', shake256x4 out outOff outlen input inOff inlen = .ok out' ∧
      ∀ l, Wrote (out l) (outOff l) (Keccak.shake256 (((input l).drop (inOff l)).take inlen) outlen) (out' l) ∧
        (Keccak.shake256 (((input l).drop (inOff l)).take inlen) outlen).length = outlen := by
  have hl := fun l => length_shake256 (((input l).drop (inOff l)).take inlen) outlen
  exact ⟨_, shake256x4_ok out outOff outlen input inOff inlen ho hi, fun l => ⟨wrote_writeAt (by rw [hl]; exact ho l), hl l⟩⟩

/-- C59, negation of the claim: `shake128x4` writes outside of its local arrays `t0..t3` in every call whose output length is not a multiple
of 168, whatever the buffers and their contents. -/
theorem C59_shake128x4_overrun (out : Fam (List Byte)) (outOff : Fam Nat) (outlen : Nat) (input : Fam (List Byte)) (inOff : Fam Nat) (inlen : Nat)
    (ho : ∀ l, outOff l + outlen ≤ (out l).length) (hi : ∀ l, inOff l + inlen ≤ (input l).length) (hq : outlen % 168 ≠ 0) :
    shake128x4 out outOff outlen input inOff inlen = .error .oob :=
  shake128x4_overrun out outOff outlen input inOff inlen ho hi hq

/-- C59: all calls in the directory have such a length: `SABER_SEEDBYTES` = 32 (SABER_indcpa.c:491), 3744 = 9·13·256/8 (GenMatrix4x) and
768 = 3·256 (GenSecret4x). -/
theorem C59_lengths_of_the_calls : 32 % 168 ≠ 0 ∧ 9 * 13 * 256 / 8 % 168 ≠ 0 ∧ 3 * 256 % 168 ≠ 0 := by decide

/-- C59: when the output length is a multiple of 168 the function writes the four output streams and nothing else. -/
theorem C59_shake128x4_multiple (out : Fam (List Byte)) (outOff : Fam Nat) (outlen : Nat) (input : Fam (List Byte)) (inOff : Fam Nat) (inlen : Nat)
    (ho : ∀ l, outOff l + outlen ≤ (out l).length) (hi : ∀ l, inOff l + inlen ≤ (input l).length) (hq : outlen % 168 = 0) :
    ∃ out', shake128x4 out outOff outlen input inOff inlen = .ok out' ∧
      ∀ l, Wrote (out l) (outOff l) (Keccak.shake128 (((input l).drop (inOff l)).take inlen) outlen) (out' l) ∧
        (Keccak.shake128 (((input l).drop (inOff l)).take inlen) outlen).length = outlen := by
  have hl := fun l => length_shake128 (((input l).drop (inOff l)).take inlen) outlen
  exact ⟨_, shake128x4_multiple out outOff outlen input inOff inlen ho hi hq, fun l => ⟨wrote_writeAt (by rw [hl]; exact ho l), hl l⟩⟩

/-- C59: with `t0..t3` of `SHAKE128_RATE` bytes the function would be correct for all lengths: the size of the arrays is the only defect. -/
theorem C59_shake128x4_repaired (out : Fam (List Byte)) (outOff : Fam Nat) (outlen : Nat) (input : Fam (List Byte)) (inOff : Fam Nat) (inlen : Nat)
    (ho : ∀ l, outOff l + outlen ≤ (out l).length) (hi : ∀ l, inOff l + inlen ≤ (input l).length) :
    ∃ out', shake128x4With SHAKE128_RATE out outOff outlen input inOff inlen = .ok out' ∧
      ∀ l, Wrote (out l) (outOff l) (Keccak.shake128 (((input l).drop (inOff l)).take inlen) outlen) (out' l) ∧
        (Keccak.shake128 (((input l).drop (inOff l)).take inlen) outlen).length = outlen := by
  have hl := fun l => length_shake128 (((input l).drop (inOff l)).take inlen) outlen
  exact ⟨_, shake128x4With_ok out outOff outlen input inOff inlen ho hi, fun l => ⟨wrote_writeAt (by rw [hl]; exact ho l), hl l⟩⟩

/-- The hypotheses are met by the call that expands the seed (SABER_indcpa.c:491): 32 bytes out, 32 bytes in, four different seeds. -/
example : (∀ l : Fin 4, 0 + 32 ≤ (List.replicate 32 (BitVec.ofNat 8 l)).length) ∧ 32 % 168 ≠ 0 ∧
    shake128x4 (fun l => List.replicate 32 (BitVec.ofNat 8 l)) (fun _ => 0) 32 (fun l => List.replicate 32 (BitVec.ofNat 8 l)) (fun _ => 0) 32 = .error .oob :=
  ⟨fun l => by rw [List.length_replicate], by decide, C59_shake128x4_overrun _ _ _ _ _ _ (fun l => by rw [List.length_replicate])
    (fun l => by rw [List.length_replicate]) (by decide)⟩

/-- Four different messages with offsets. -/
example : ∃ out', sha3_256x4 (fun _ => List.replicate 40 0) (fun _ => 3) (fun l => List.replicate 100 (BitVec.ofNat 8 l)) (fun l => l) 50 = .ok out' ∧
    Wrote (List.replicate 40 0) 3 (Keccak.sha3_256 (((List.replicate 100 (2 : Byte)).drop 2).take 50)) (out' 2) := by
  obtain ⟨o, h1, h2⟩ := C58_sha3_256x4 (fun _ => List.replicate 40 0) (fun _ => 3) (fun l => List.replicate 100 (BitVec.ofNat 8 l)) (fun l => l) 50
    (fun l => by rw [List.length_replicate]; decide) (fun l => by rw [List.length_replicate]; have := l.isLt; omega)
  exact ⟨o, h1, h2 2⟩

end Saber.Props
