import Verif.Proof.U.Sha256
import Verif.Proof.U.Sha512
/-!
# C43: SHA-256 and SHA-512 of the 90s variant

The specification is `Verif/Spec/Sha2.lean`, a transcription of FIPS 180-4.
-/
namespace Saber.Props
open Spec.Sha2

/-- C43: `sha256(out, in, inlen)` writes the SHA-256 hash of the `inlen` bytes at `in` to the 32 bytes at `out`, changes nothing else and
never reads or writes outside of the two buffers.  FIPS 180-4 defines the hash for messages of fewer than 2^64 bits. -/
theorem C43_sha256 (out : List Byte) (outOff : Nat) (inp : List Byte) (inOff inlen : Nat) (ho : outOff + 32 ≤ out.length)
    (hi : inOff + inlen ≤ inp.length) (hlen : 8 * inlen < 2 ^ 64) :
    U.sha256 out outOff inp inOff inlen = .ok (writeAt out outOff (sha256 ((inp.drop inOff).take inlen))) :=
  U.sha256_ok out outOff inp inOff inlen ho hi (by omega)

/-- C43: the same for `sha512`, for every length a `size_t` can hold. -/
theorem C43_sha512 (out : List Byte) (outOff : Nat) (inp : List Byte) (inOff inlen : Nat) (ho : outOff + 64 ≤ out.length)
    (hi : inOff + inlen ≤ inp.length) (hlen : inlen < 2 ^ 64) :
    U.sha512 out outOff inp inOff inlen = .ok (writeAt out outOff (sha512 ((inp.drop inOff).take inlen))) :=
  U.sha512_ok out outOff inp inOff inlen ho hi hlen

/-- A concrete case of both: the hash of "abc" of FIPS 180-4, computed by the model in the kernel. -/
example : (U.sha256 (List.replicate 32 0) 0 [0x61, 0x62, 0x63] 0 3).toOption = some
    [0xba, 0x78, 0x16, 0xbf, 0x8f, 0x01, 0xcf, 0xea, 0x41, 0x41, 0x40, 0xde, 0x5d, 0xae, 0x22, 0x23,
     0xb0, 0x03, 0x61, 0xa3, 0x96, 0x17, 0x7a, 0x9c, 0xb4, 0x10, 0xff, 0x61, 0xf2, 0x00, 0x15, 0xad] := by decide +kernel

example : (U.sha512 (List.replicate 64 0) 0 [0x61, 0x62, 0x63] 0 3).toOption = some
    [0xdd, 0xaf, 0x35, 0xa1, 0x93, 0x61, 0x7a, 0xba, 0xcc, 0x41, 0x73, 0x49, 0xae, 0x20, 0x41, 0x31,
     0x12, 0xe6, 0xfa, 0x4e, 0x89, 0xa9, 0x7e, 0xa2, 0x0a, 0x9e, 0xee, 0xe6, 0x4b, 0x55, 0xd3, 0x9a,
     0x21, 0x92, 0x99, 0x2a, 0x27, 0x4f, 0xc1, 0xa8, 0x36, 0xba, 0x3c, 0x23, 0xa3, 0xfe, 0xeb, 0xbd,
     0x45, 0x4d, 0x44, 0x23, 0x64, 0x3c, 0xe8, 0x0e, 0x2a, 0x9a, 0xc9, 0x4f, 0xa5, 0x4c, 0xa4, 0x9f] := by decide +kernel

/-- The specification itself on the same message, which fixes the meaning of the constants, the padding and the byte order. -/
example : sha256 [0x61, 0x62, 0x63] =
    [0xba, 0x78, 0x16, 0xbf, 0x8f, 0x01, 0xcf, 0xea, 0x41, 0x41, 0x40, 0xde, 0x5d, 0xae, 0x22, 0x23,
     0xb0, 0x03, 0x61, 0xa3, 0x96, 0x17, 0x7a, 0x9c, 0xb4, 0x10, 0xff, 0x61, 0xf2, 0x00, 0x15, 0xad] := by
  have h := C43_sha256 (List.replicate 32 0) 0 [0x61, 0x62, 0x63] 0 3 (by simp) (by simp) (by decide)
  have h2 : (U.sha256 (List.replicate 32 0) 0 [0x61, 0x62, 0x63] 0 3).toOption = some
    [0xba, 0x78, 0x16, 0xbf, 0x8f, 0x01, 0xcf, 0xea, 0x41, 0x41, 0x40, 0xde, 0x5d, 0xae, 0x22, 0x23,
     0xb0, 0x03, 0x61, 0xa3, 0x96, 0x17, 0x7a, 0x9c, 0xb4, 0x10, 0xff, 0x61, 0xf2, 0x00, 0x15, 0xad] := by decide +kernel
  rw [h] at h2
  have hl : (sha256 ((([0x61, 0x62, 0x63] : List Byte).drop 0).take 3)).length = 32 := U.Sha256.length_bytes _
  rw [writeAt_full _ _ (by rw [hl]; rfl)] at h2
  exact Option.some.inj h2

end Saber.Props
