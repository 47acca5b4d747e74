import Verif.Model.M4.Poly
import Verif.Model.Indcpa
/-!
# `Cortex-M4/src/*/m4-striding/SABER_indcpa.c` and `kem.c`
-/
namespace Saber.M4

variable (P : PSet) (lib : Fips202Lib) (toom : Toom) (cs : Bool)

/-- `indcpa_kem_keypair` (SABER_indcpa.c:8-18) -/
def indcpa_kem_keypair {σ : Type} (rb : RandomBytes σ) (pk sk : List Byte) (st : σ) : CM (List Byte × List Byte × σ) := do
  let (pk, st) ← rb pk P.POLYVECCOMPRESSEDBYTES SEEDBYTES st
  let (sk, st) ← rb sk 0 NOISE_SEEDBYTES st
  let pk ← lib.shake128 pk P.POLYVECCOMPRESSEDBYTES SEEDBYTES pk P.POLYVECCOMPRESSEDBYTES SEEDBYTES
  let (pk, sk) ← MatrixVectorMulKeyPair P lib toom cs pk sk
  pure (pk, sk, st)

/-- `indcpa_kem_enc` (SABER_indcpa.c:21-31); the pointers point into the given objects at the given offsets. -/
def indcpa_kem_enc (m : List Byte) (mOff : Nat) (seed_sp : List Byte) (seedOff : Nat) (pk : List Byte) (pkOff : Nat)
    (ciphertext : List Byte) : CM (List Byte) := do
  let (sp, _) ← GenSecret P lib cs (uninitVec 143 P.L) seed_sp seedOff 0
  let ct ← MatrixVectorMulEnc P lib toom ciphertext 0 pk (pkOff + P.POLYVECCOMPRESSEDBYTES) sp
  InnerProdEnc P toom ct P.POLYVECCOMPRESSEDBYTES pk pkOff sp m mOff

/-- `indcpa_kem_enc_cmp` (SABER_indcpa.c:33-47) -/
def indcpa_kem_enc_cmp (m : List Byte) (mOff : Nat) (seed_sp : List Byte) (seedOff : Nat) (pk : List Byte) (pkOff : Nat)
    (ciphertext : List Byte) : CM Byte := do
  let fail := (0 : BitVec 32)
  let (sp, _) ← GenSecret P lib cs (uninitVec 144 P.L) seed_sp seedOff 0
  let f ← MatrixVectorMulEnc_cmp P lib toom ciphertext 0 pk (pkOff + P.POLYVECCOMPRESSEDBYTES) sp
  let fail := fail ||| f
  let f ← InnerProdEnc_cmp P toom ciphertext P.POLYVECCOMPRESSEDBYTES pk pkOff sp m mOff
  let fail := fail ||| f
  let fail := ~~~fail + 1
  let fail := fail >>> 31
  pure (fail.setWidth 8)

/-- `indcpa_kem_dec` (SABER_indcpa.c:49-52) -/
def indcpa_kem_dec (sk ciphertext m : List Byte) : CM (List Byte) := InnerProdDec P toom cs m ciphertext sk

/-- `crypto_kem_keypair` (kem.c:8-19).  Returns the return code, `pk`, `sk` and the generator state. -/
def crypto_kem_keypair {σ : Type} (rb : RandomBytes σ) (pk sk : List Byte) (st : σ) : CM (Int × List Byte × List Byte × σ) := do
  let (pk, sk, st) ← indcpa_kem_keypair P lib toom cs rb pk sk st
  let sk ← memcpy sk (INDCPA_SECRETKEYBYTES P cs) pk 0 P.INDCPA_PUBLICKEYBYTES
  let sk ← lib.sha3_256 sk (SECRETKEYBYTES P cs - 64) pk 0 P.INDCPA_PUBLICKEYBYTES
  let (sk, st) ← rb sk (SECRETKEYBYTES P cs - KEYBYTES) KEYBYTES st
  pure (0, pk, sk, st)

/-- `crypto_kem_enc` (kem.c:21-41).  Returns the return code, `c`, `k` and the generator state. -/
def crypto_kem_enc {σ : Type} (rb : RandomBytes σ) (c k pk : List Byte) (st : σ) : CM (Int × List Byte × List Byte × σ) := do
  let kr := uninit 8 145 64
  let buf := uninit 8 146 64
  let (buf, st) ← rb buf 0 32 st
  let buf ← lib.sha3_256 buf 0 buf 0 32
  let buf ← lib.sha3_256 buf 32 pk 0 P.INDCPA_PUBLICKEYBYTES
  let kr ← lib.sha3_512 kr 0 buf 0 64
  let c ← indcpa_kem_enc P lib toom cs buf 0 kr 32 pk 0 c
  let kr ← lib.sha3_256 kr 32 c 0 P.BYTES_CCA_DEC
  let k ← lib.sha3_256 k 0 kr 0 64
  pure (0, c, k, st)

/-- `crypto_kem_dec` (kem.c:43-66).  Returns the return code and `k`. -/
def crypto_kem_dec (k c sk : List Byte) : CM (Int × List Byte) := do
  let buf := uninit 8 147 64
  let kr := uninit 8 148 64
  let buf ← indcpa_kem_dec P toom cs sk c buf
  let buf ← memcpy buf 32 sk (SECRETKEYBYTES P cs - 64) 32
  let kr ← lib.sha3_512 kr 0 buf 0 64
  let fail ← indcpa_kem_enc_cmp P lib toom cs buf 0 kr 32 sk (INDCPA_SECRETKEYBYTES P cs) c
  let kr ← lib.sha3_256 kr 32 c 0 P.BYTES_CCA_DEC
  let kr ← cmov kr 0 sk (SECRETKEYBYTES P cs - KEYBYTES) KEYBYTES fail
  let k ← lib.sha3_256 k 0 kr 0 64
  pure (0, k)

end Saber.M4
