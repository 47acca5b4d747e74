import Verif.Model.M0.Fips202
import Verif.Model.X4.Fips202
import Verif.Model.Avx.AesNi
/-!
# The hash functions of the other implementations with both pointers into one object

As in `Verif.Model.InPlace`: input and output are parts of one object `mem`, and every access goes to the current content of it.
-/
namespace Saber.InPlace

/-- `crypto_stream_aes256ctr` (Variants/uSaber-90s/avx2/crypto_stream_aes256ctr.c:211-250) with `out` and `k` pointing into `mem`.  Local objects: `rkeys`, `n2`,
`outni`. -/
def aesni_stream (mem : List Byte) (outOff outlen : Nat) (n : List Byte) (kOff : Nat) : CM (List Byte) := do
  let rkeys ← Avx.AesNi.aesni_key256_expand mem kOff (Avx.AesNi.uninitM128 100 16)
  let n2 ← Avx.AesNi.loadNonce (uninit 8 120 16) n
  let ⟨mem, _⟩ ← loop ((outlen + 127) / 128) (mem, n2) fun t ⟨mem, n2⟩ => do
    let i := 128 * t
    let ⟨outni, n2⟩ ← Avx.AesNi.aesni_encrypt8 (uninit 8 121 128) n2 rkeys
    let mj := if i + 128 ≥ outlen then outlen - i else 128
    let mem ← loop mj mem fun j mem => do
      let x ← rd outni j
      wr mem (outOff + (i + j)) x
    pure (mem, n2)
  pure mem

/-- `saber_aes256ctr_prf` (Variants/uSaber-90s/avx2/symmetric-aes.c:7-11) -/
def aesni_prf (mem : List Byte) (outOff outlen inOff : Nat) : CM (List Byte) := aesni_stream mem outOff outlen (List.replicate 16 0) inOff

section M0
variable [StatePermute]

/-- `keccak_squeezeblocks` (Cortex-M0/saber-ref-mem/src/fips202.c:113-128) with `h` pointing to `mem[hOff]` and the linked permutation -/
def squeezeblocksP (mem : List Byte) (hOff nblocks : Nat) (s : List (BitVec 64)) (r : Nat) : CM (List Byte × List (BitVec 64)) := do
  let (mem, _, s) ← loop nblocks (mem, hOff, s) fun _ (mem, hOff, s) => do
    let s ← StatePermute.permute s
    let mem ← loop (r >>> 3) mem fun i mem => do
      let v ← rd s i
      store64 mem (hOff + 8 * i) v
    pure (mem, hOff + r, s)
  pure (mem, s)

/-- `shake128` of the Cortex-M0 port (Cortex-M0/saber-ref-mem/src/fips202.c:216-238) -/
def m0_shake128 (mem : List Byte) (outOff outlen inOff inlen : Nat) : CM (List Byte) := do
  let s ← M0.keccak_absorb (List.replicate 25 0) SHAKE128_RATE mem inOff inlen 0x1F
  let nblocks := outlen / SHAKE128_RATE
  let (mem, s) ← squeezeblocksP mem outOff nblocks s SHAKE128_RATE
  let outOff := outOff + nblocks * SHAKE128_RATE
  let outlen := outlen - nblocks * SHAKE128_RATE
  if outlen ≠ 0 then
    let (t, _) ← squeezeblocksP (uninit 8 110 SHAKE128_RATE) 0 1 s SHAKE128_RATE
    loop outlen mem fun i mem => do
      let v ← rd t i
      wr mem (outOff + i) v
  else
    pure mem

/-- `sha3_256` of the Cortex-M0 port (Cortex-M0/saber-ref-mem/src/fips202.c:296-310) -/
def m0_sha3_256 (mem : List Byte) (outOff inOff inlen : Nat) : CM (List Byte) := do
  let s ← M0.keccak_absorb (uninit 64 111 25) SHA3_256_RATE mem inOff inlen 0x06
  let (t, _) ← squeezeblocksP (uninit 8 112 SHA3_256_RATE) 0 1 s SHA3_256_RATE
  loop 32 mem fun i mem => do
    let v ← rd t i
    wr mem (outOff + i) v

end M0

open X4 in
/-- `shake128x4` (Variants/SaberX4_avx2/fips202x4.c:145-187) with the input and the output of each of the four instances in one object, and arrays `t0..t3` of
`tSize` bytes; the code has `tSize = SHAKE256_RATE`. -/
def shake128x4 (tSize : Nat) (mem : Fam (List Byte)) (outOff : Fam Nat) (outlen : Nat) (inOff : Fam Nat) (inlen : Nat) : CM (Fam (List Byte)) := do
  let s ← clearState4x
  let s ← keccak_absorb4x s SHAKE128_RATE mem inOff inlen 0x1F
  let (mem, s) ← keccak_squeezeblocks4x mem outOff (outlen / SHAKE128_RATE) s SHAKE128_RATE
  let outOff : Fam Nat := fun l => outOff l + (outlen / SHAKE128_RATE) * SHAKE128_RATE
  if outlen % SHAKE128_RATE ≠ 0 then
    let (t, _) ← keccak_squeezeblocks4x (fun l => uninit 8 (320 + l) tSize) (fun _ => 0) 1 s SHAKE128_RATE
    copyOut (outlen % SHAKE128_RATE) mem outOff t
  else
    pure mem

open X4 in
/-- `sha3_256x4` (Variants/SaberX4_avx2/fips202x4.c:234-270) with the input and the output of each of the four instances in one object -/
def sha3_256x4 (mem : Fam (List Byte)) (outOff inOff : Fam Nat) (inlen : Nat) : CM (Fam (List Byte)) := do
  let s ← clearState4x
  let s ← keccak_absorb4x s SHA3_256_RATE mem inOff inlen 0x06
  let (t, _) ← keccak_squeezeblocks4x (fun l => uninit 8 (340 + l) SHA3_256_RATE) (fun _ => 0) 1 s SHA3_256_RATE
  copyOut 32 mem outOff t

end Saber.InPlace
