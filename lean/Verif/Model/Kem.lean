import Verif.Model.Indcpa
import Verif.Model.Verify
/-!
# `Reference_Implementation_KEM/kem.c`
-/
namespace Saber

/-- `crypto_kem_keypair` (kem.c:12-25).  Returns the return code, `pk`, `sk` and the generator state. -/
def crypto_kem_keypair {σ : Type} (P : PSet) (rb : RandomBytes σ) (pk sk : List Byte) (st : σ) :
    CM (Int × List Byte × List Byte × σ) := do
  let (pk, sk, st) ← indcpa_kem_keypair P rb pk sk st
  let sk ← loop P.INDCPA_PUBLICKEYBYTES sk fun i sk => do
    let v ← rd pk i
    wr sk (i + P.INDCPA_SECRETKEYBYTES) v
  let sk ← sha3_256 sk (P.SECRETKEYBYTES - 64) pk 0 P.INDCPA_PUBLICKEYBYTES
  let (sk, st) ← rb sk (P.SECRETKEYBYTES - KEYBYTES) KEYBYTES st
  pure (0, pk, sk, st)

/-- `crypto_kem_enc` (kem.c:27-49).  Returns the return code, `c`, `k` and the generator state. -/
def crypto_kem_enc {σ : Type} (P : PSet) (rb : RandomBytes σ) (c k pk : List Byte) (st : σ) :
    CM (Int × List Byte × List Byte × σ) := do
  let kr := uninit 8 60 64
  let buf := uninit 8 61 64
  let (buf, st) ← rb buf 0 32 st
  let buf ← sha3_256 buf 0 buf 0 32
  let buf ← sha3_256 buf 32 pk 0 P.INDCPA_PUBLICKEYBYTES
  let kr ← sha3_512 kr 0 buf 0 64
  let c ← indcpa_kem_enc P buf 0 kr 32 pk 0 c
  let kr ← sha3_256 kr 32 c 0 P.BYTES_CCA_DEC
  let k ← sha3_256 k 0 kr 0 64
  pure (0, c, k, st)

/-- `crypto_kem_dec` (kem.c:51-78).  Returns the return code and `k`. -/
def crypto_kem_dec (P : PSet) (k c sk : List Byte) : CM (Int × List Byte) := do
  let cmp := uninit 8 62 P.BYTES_CCA_DEC
  let buf := uninit 8 63 64
  let kr := uninit 8 64 64
  let buf ← indcpa_kem_dec P sk c buf
  let buf ← loop 32 buf fun i buf => do
    let v ← rd sk (P.SECRETKEYBYTES - 64 + i)
    wr buf (32 + i) v
  let kr ← sha3_512 kr 0 buf 0 64
  let cmp ← indcpa_kem_enc P buf 0 kr 32 sk P.INDCPA_SECRETKEYBYTES cmp
  let fail ← verify c 0 cmp 0 P.BYTES_CCA_DEC
  let kr ← sha3_256 kr 32 c 0 P.BYTES_CCA_DEC
  let kr ← cmov kr 0 sk (P.SECRETKEYBYTES - KEYBYTES) KEYBYTES (BitVec.ofInt 8 fail)
  let k ← sha3_256 k 0 kr 0 64
  pure (0, k)

end Saber
