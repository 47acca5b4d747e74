import Verif.Model.Fips202
import Verif.Model.U.Poly
/-!
# The hash functions with both pointers into one object

`indcpa_kem_keypair` calls `shake128(seed_A, 32, seed_A, 32)` and `crypto_kem_enc` calls `sha3_256(buf, buf, 32)`.  The models of the hash functions take the input and
the output as separate arguments, which cannot express that a write to the output changes what a later read of the input returns.  Here the object is one
argument `mem`, every access through `output` or `input` is an access to the current content of `mem`, and the statements are in the order of the code.  The local
arrays `s`, `t`, `h` and `padded` of the functions are separate objects.
-/
namespace Saber.InPlace

/-- `keccak_squeezeblocks` (Reference_Implementation_KEM/fips202.c:362-377) with `h` pointing to `mem[hOff]`. -/
def keccak_squeezeblocks (mem : List Byte) (hOff nblocks : Nat) (s : List (BitVec 64)) (r : Nat) : CM (List Byte × List (BitVec 64)) := do
  let (mem, _, s) ← loop nblocks (mem, hOff, s) fun _ (mem, hOff, s) => do
    let s ← KeccakF1600_StatePermute s
    let mem ← loop (r >>> 3) mem fun i mem => do
      let v ← rd s i
      store64 mem (hOff + 8 * i) v
    pure (mem, hOff + r, s)
  pure (mem, s)

/-- `shake128` (Reference_Implementation_KEM/fips202.c:386-412) -/
def shake128 (mem : List Byte) (outOff outlen inOff inlen : Nat) : CM (List Byte) := do
  let nblocks := outlen / SHAKE128_RATE
  let s ← clearState
  let s ← keccak_absorb s SHAKE128_RATE mem inOff inlen 0x1F
  let (mem, s) ← keccak_squeezeblocks mem outOff nblocks s SHAKE128_RATE
  let outOff := outOff + nblocks * SHAKE128_RATE
  let outlen := outlen - nblocks * SHAKE128_RATE
  if outlen ≠ 0 then
    let (t, _) ← Saber.keccak_squeezeblocks (uninit 8 22 SHAKE128_RATE) 0 1 s SHAKE128_RATE
    loop outlen mem fun i mem => do
      let v ← rd t i
      wr mem (outOff + i) v
  else
    pure mem

/-- `sha3_256` (Reference_Implementation_KEM/fips202.c:467-484) -/
def sha3_256 (mem : List Byte) (outOff inOff inlen : Nat) : CM (List Byte) := do
  let s ← clearState
  let s ← keccak_absorb s SHA3_256_RATE mem inOff inlen 0x06
  let (t, _) ← Saber.keccak_squeezeblocks (uninit 8 23 SHA3_256_RATE) 0 1 s SHA3_256_RATE
  loop 32 mem fun i mem => do
    let v ← rd t i
    wr mem (outOff + i) v

/-- `sha3_512` (Reference_Implementation_KEM/fips202.c:486-503) -/
def sha3_512 (mem : List Byte) (outOff inOff inlen : Nat) : CM (List Byte) := do
  let s ← clearState
  let s ← keccak_absorb s SHA3_512_RATE mem inOff inlen 0x06
  let (t, _) ← Saber.keccak_squeezeblocks (uninit 8 24 SHA3_512_RATE) 0 1 s SHA3_512_RATE
  loop 64 mem fun i mem => do
    let v ← rd t i
    wr mem (outOff + i) v

open U.Sha256 in
/-- `sha256` (Variants/uSaber-90s/ref/sha256.c:229-271) -/
def sha256 (mem : List Byte) (outOff inOff inlen : Nat) : CM (List Byte) := do
  let bits := BitVec.ofNat 64 inlen <<< 3
  let h ← loop 32 (uninit 8 70 32) fun i h => do
    let x ← rd iv i
    wr h i x
  let h ← blocks h mem inOff inlen
  let inOff := inOff + inlen
  let inlen := inlen % 64
  let inOff := inOff - inlen
  let padded ← loop inlen (uninit 8 71 128) fun i padded => do
    let x ← rd mem (inOff + i)
    wr padded i x
  let padded ← wr padded inlen 0x80
  let h ← if inlen < 56 then do
      let padded ← loop (56 - (inlen + 1)) padded fun i padded => wr padded (inlen + 1 + i) 0
      let padded ← wr padded 56 ((bits >>> 56).setWidth 8)
      let padded ← wr padded 57 ((bits >>> 48).setWidth 8)
      let padded ← wr padded 58 ((bits >>> 40).setWidth 8)
      let padded ← wr padded 59 ((bits >>> 32).setWidth 8)
      let padded ← wr padded 60 ((bits >>> 24).setWidth 8)
      let padded ← wr padded 61 ((bits >>> 16).setWidth 8)
      let padded ← wr padded 62 ((bits >>> 8).setWidth 8)
      let padded ← wr padded 63 (bits.setWidth 8)
      blocks h padded 0 64
    else do
      let padded ← loop (120 - (inlen + 1)) padded fun i padded => wr padded (inlen + 1 + i) 0
      let padded ← wr padded 120 ((bits >>> 56).setWidth 8)
      let padded ← wr padded 121 ((bits >>> 48).setWidth 8)
      let padded ← wr padded 122 ((bits >>> 40).setWidth 8)
      let padded ← wr padded 123 ((bits >>> 32).setWidth 8)
      let padded ← wr padded 124 ((bits >>> 24).setWidth 8)
      let padded ← wr padded 125 ((bits >>> 16).setWidth 8)
      let padded ← wr padded 126 ((bits >>> 8).setWidth 8)
      let padded ← wr padded 127 (bits.setWidth 8)
      blocks h padded 0 128
  loop 32 mem fun i mem => do
    let x ← rd h i
    wr mem (outOff + i) x

open U.Sha512 in
/-- `sha512` (Variants/uSaber-90s/ref/sha512.c:258-302) -/
def sha512 (mem : List Byte) (outOff inOff inlen : Nat) : CM (List Byte) := do
  let bytes := BitVec.ofNat 64 inlen
  let h ← loop 64 (uninit 8 70 64) fun i h => do
    let x ← rd iv i
    wr h i x
  let h ← blocks h mem inOff inlen
  let inOff := inOff + inlen
  let inlen := inlen % 128
  let inOff := inOff - inlen
  let padded ← loop inlen (uninit 8 71 256) fun i padded => do
    let x ← rd mem (inOff + i)
    wr padded i x
  let padded ← wr padded inlen 0x80
  let h ← if inlen < 112 then do
      let padded ← loop (119 - (inlen + 1)) padded fun i padded => wr padded (inlen + 1 + i) 0
      let padded ← wr padded 119 ((bytes >>> 61).setWidth 8)
      let padded ← wr padded 120 ((bytes >>> 53).setWidth 8)
      let padded ← wr padded 121 ((bytes >>> 45).setWidth 8)
      let padded ← wr padded 122 ((bytes >>> 37).setWidth 8)
      let padded ← wr padded 123 ((bytes >>> 29).setWidth 8)
      let padded ← wr padded 124 ((bytes >>> 21).setWidth 8)
      let padded ← wr padded 125 ((bytes >>> 13).setWidth 8)
      let padded ← wr padded 126 ((bytes >>> 5).setWidth 8)
      let padded ← wr padded 127 ((bytes <<< 3).setWidth 8)
      blocks h padded 0 128
    else do
      let padded ← loop (247 - (inlen + 1)) padded fun i padded => wr padded (inlen + 1 + i) 0
      let padded ← wr padded 247 ((bytes >>> 61).setWidth 8)
      let padded ← wr padded 248 ((bytes >>> 53).setWidth 8)
      let padded ← wr padded 249 ((bytes >>> 45).setWidth 8)
      let padded ← wr padded 250 ((bytes >>> 37).setWidth 8)
      let padded ← wr padded 251 ((bytes >>> 29).setWidth 8)
      let padded ← wr padded 252 ((bytes >>> 21).setWidth 8)
      let padded ← wr padded 253 ((bytes >>> 13).setWidth 8)
      let padded ← wr padded 254 ((bytes >>> 5).setWidth 8)
      let padded ← wr padded 255 ((bytes <<< 3).setWidth 8)
      blocks h padded 0 256
  loop 64 mem fun i mem => do
    let x ← rd h i
    wr mem (outOff + i) x

/-- `br_aes_ct64_ctr_run` (Variants/uSaber-90s/ref/aes256ctr.c:530-555) with `data` pointing to `mem[off]`: it has no other pointer into `mem`, so the text is that of
`U.Aes.ctr_run`. -/
def ctr_run (sk_exp : List (BitVec 64)) (iv : List Byte) (ivOff : Nat) (cc : BitVec 32) (mem : List Byte) (off len : Nat) : CM (List Byte) := do
  let ivw ← U.Aes.ivInit (uninit 32 84 16) iv ivOff cc
  U.Aes.ctrLoop sk_exp ivw mem off len

/-- `aes256ctr_prf` (Variants/uSaber-90s/ref/aes256ctr.c:557-563), called by `saber_aes256ctr_prf` (symmetric-aes.c:7-11) with a local nonce of 12 zero bytes. -/
def aes256ctr_prf (mem : List Byte) (outOff outlen keyOff : Nat) : CM (List Byte) := do
  let expnonce : List Byte := List.replicate 12 0
  let sk_exp ← U.Aes.ctr_init (uninit 64 85 120) mem keyOff
  ctr_run sk_exp expnonce 0 0 mem outOff outlen

/-- The macro `prf` (Variants/uSaber-90s/ref/symmetric.h:15,24) -/
def prf (c : U.Cfg) (mem : List Byte) (outOff outlen inOff inlen : Nat) : CM (List Byte) :=
  if c.s90 then aes256ctr_prf mem outOff outlen inOff else shake128 mem outOff outlen inOff inlen

/-- The macro `hash_h` (Variants/uSaber-90s/ref/symmetric.h:12,21) -/
def hash_h (c : U.Cfg) (mem : List Byte) (outOff inOff inlen : Nat) : CM (List Byte) :=
  if c.s90 then sha256 mem outOff inOff inlen else sha3_256 mem outOff inOff inlen

/-- The macro `hash_g` (Variants/uSaber-90s/ref/symmetric.h:13,22) -/
def hash_g (c : U.Cfg) (mem : List Byte) (outOff inOff inlen : Nat) : CM (List Byte) :=
  if c.s90 then sha512 mem outOff inOff inlen else sha3_512 mem outOff inOff inlen

end Saber.InPlace
