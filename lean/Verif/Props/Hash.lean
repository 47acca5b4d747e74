import Verif.Proof.Fips202
/-!
# Properties of the hash functions: C23 to C26
-/
namespace Saber.Props
open Spec

/-- The 1600-bit string of a state of 25 lanes: bit `z` of lane `x + 5y` has index `64 (x + 5y) + z` (FIPS 202, 3.1.2). -/
def laneBits (s : List (BitVec 64)) : List Bool := (List.range 1600).map fun n => (s.getD (n / 64) 0).getLsbD (n % 64)

/-- C23: the permutation is Keccak-f[1600]. -/
theorem C23_keccakF (s : List (BitVec 64)) (hs : s.length = 25) :
    ∃ s', KeccakF1600_StatePermute s = .ok s' ∧ s'.length = 25 ∧ laneBits s' = Keccak.keccakF (laneBits s) := KeccakF1600_ok s hs

/-- C23: the constants in the code are those of the LFSR of FIPS 202. -/
theorem C23_round_constants (ir : Fin 24) (z : Fin 64) : (KeccakF_RoundConstants.getD ir.val 0).getLsbD z.val = Keccak.RC ir.val z :=
  RC_table ir z

/-- C24: `sha3_256` writes the 32-byte digest and nothing else. -/
theorem C24_sha3_256 (output : List Byte) (outOff : Nat) (input : List Byte) (inOff inlen : Nat)
    (ho : outOff + 32 ≤ output.length) (hi : inOff + inlen ≤ input.length) :
    ∃ out, sha3_256 output outOff input inOff inlen = .ok out ∧ out.length = output.length ∧
      (out.drop outOff).take 32 = Keccak.sha3_256 ((input.drop inOff).take inlen) ∧
      out.take outOff = output.take outOff ∧ out.drop (outOff + 32) = output.drop (outOff + 32) := by
  have hl := length_sha3_256 ((input.drop inOff).take inlen)
  refine ⟨_, sha3_256_ok output outOff input inOff inlen ho hi, length_writeAt _ _ _ (by omega), ?_, ?_, ?_⟩
  · rw [← hl]; exact writeAt_read _ _ _ (by omega)
  · exact writeAt_take _ _ _ (by omega)
  · rw [← hl]; exact writeAt_drop _ _ _ (by omega)

/-- C24: `sha3_512` writes the 64-byte digest and nothing else. -/
theorem C24_sha3_512 (output : List Byte) (outOff : Nat) (input : List Byte) (inOff inlen : Nat)
    (ho : outOff + 64 ≤ output.length) (hi : inOff + inlen ≤ input.length) :
    ∃ out, sha3_512 output outOff input inOff inlen = .ok out ∧ out.length = output.length ∧
      (out.drop outOff).take 64 = Keccak.sha3_512 ((input.drop inOff).take inlen) ∧
      out.take outOff = output.take outOff ∧ out.drop (outOff + 64) = output.drop (outOff + 64) := by
  have hl := length_sha3_512 ((input.drop inOff).take inlen)
  refine ⟨_, sha3_512_ok output outOff input inOff inlen ho hi, length_writeAt _ _ _ (by omega), ?_, ?_, ?_⟩
  · rw [← hl]; exact writeAt_read _ _ _ (by omega)
  · exact writeAt_take _ _ _ (by omega)
  · rw [← hl]; exact writeAt_drop _ _ _ (by omega)

/-- C25: `shake128` writes the requested number of bytes of the output stream and nothing else. -/
theorem C25_shake128 (output : List Byte) (outOff outlen : Nat) (input : List Byte) (inOff inlen : Nat)
    (ho : outOff + outlen ≤ output.length) (hi : inOff + inlen ≤ input.length) :
    ∃ out, shake128 output outOff outlen input inOff inlen = .ok out ∧ out.length = output.length ∧
      (out.drop outOff).take outlen = Keccak.shake128 ((input.drop inOff).take inlen) outlen ∧
      out.take outOff = output.take outOff ∧ out.drop (outOff + outlen) = output.drop (outOff + outlen) := by
  have e := shake128_ok output outOff outlen input inOff inlen ho hi
  generalize hD : Keccak.shake128 ((input.drop inOff).take inlen) outlen = D at e ⊢
  have hl : D.length = outlen := by rw [← hD, length_shake128]
  subst hl
  exact ⟨_, e, length_writeAt _ _ _ (by omega), writeAt_read _ _ _ (by omega), writeAt_take _ _ _ (by omega), writeAt_drop _ _ _ (by omega)⟩

/-- C26: a shorter output is a prefix of a longer one. -/
theorem C26_shake_stream (out out' : List Byte) (input : List Byte) (n n' : Nat) (h : n ≤ n') (ho : out.length = n) (ho' : out'.length = n') :
    ∃ r r', shake128 out 0 n input 0 input.length = .ok r ∧ shake128 out' 0 n' input 0 input.length = .ok r' ∧ r = r'.take n := by
  have e1 := shake128_ok out 0 n input 0 input.length (by omega) (by omega)
  have e2 := shake128_ok out' 0 n' input 0 input.length (by omega) (by omega)
  rw [writeAt_full _ _ (by rw [length_shake128]; omega)] at e1 e2
  exact ⟨_, _, e1, e2, shake128_prefix _ n n' h⟩

/-- The hypotheses of C24 and C25 are met, e.g. by the call `sha3_256(buf, buf, 32)` on a 64-byte buffer of the KEM. -/
example : ∃ out, sha3_256 (List.replicate 64 0xA5) 0 (List.replicate 64 0xA5) 0 32 = .ok out ∧ out.length = 64 := by
  obtain ⟨out, h1, h2, _⟩ := C24_sha3_256 (List.replicate 64 0xA5) 0 (List.replicate 64 0xA5) 0 32
    (by rw [List.length_replicate]; omega) (by rw [List.length_replicate]; omega)
  exact ⟨out, h1, by rw [h2, List.length_replicate]⟩

end Saber.Props
