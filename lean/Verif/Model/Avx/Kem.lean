import Verif.Model.Avx.Indcpa
import Verif.Model.Verify
/-!
# `AVX_Implementation_KEM/kem.c`

`Variants/uSaber-90s/avx2/kem.c` has the same text except that `hash_h` and `hash_g` stand in the place of `sha3_256` and `sha3_512`.
`verify.c` has the text of the reference implementation.  The cycle counters are left out.
-/
namespace Saber.Avx

/-- `crypto_kem_keypair` (kem.c:19-41).  Returns the return code, `pk`, `sk` and the generator state. -/
def crypto_kem_keypair {σ : Type} (lib : Lib) (P : PSet) (rb : RandomBytes σ) (pk sk : List Byte) (st : σ) :
    CM (Int × List Byte × List Byte × σ) := do
  let (pk, sk, st) ← indcpa_kem_keypair lib P rb pk sk st
  let sk ← loop P.INDCPA_PUBLICKEYBYTES sk fun i sk => do
    let v ← rd pk i
    wr sk (i + P.INDCPA_SECRETKEYBYTES) v
  let sk ← lib.hash_h sk (P.SECRETKEYBYTES - 64) pk 0 P.INDCPA_PUBLICKEYBYTES
  let (sk, st) ← rb sk (P.SECRETKEYBYTES - KEYBYTES) KEYBYTES st
  pure (0, pk, sk, st)

/-- `crypto_kem_enc` (kem.c:43-67).  Returns the return code, `c`, `k` and the generator state. -/
def crypto_kem_enc {σ : Type} (lib : Lib) (P : PSet) (rb : RandomBytes σ) (c k pk : List Byte) (st : σ) :
    CM (Int × List Byte × List Byte × σ) := do
  let kr := uninit 8 180 64
  let buf := uninit 8 181 64
  let (buf, st) ← rb buf 0 32 st
  let buf ← lib.hash_h buf 0 buf 0 32
  let buf ← lib.hash_h buf 32 pk 0 P.INDCPA_PUBLICKEYBYTES
  let kr ← lib.hash_g kr 0 buf 0 64
  let c ← indcpa_kem_enc lib P buf 0 kr 32 pk 0 c
  let kr ← lib.hash_h kr 32 c 0 P.BYTES_CCA_DEC
  let k ← lib.hash_h k 0 kr 0 64
  pure (0, c, k, st)

/-- `crypto_kem_dec` (kem.c:70-99).  Returns the return code and `k`. -/
def crypto_kem_dec (lib : Lib) (P : PSet) (k c sk : List Byte) : CM (Int × List Byte) := do
  let cmp := uninit 8 182 P.BYTES_CCA_DEC
  let buf := uninit 8 183 64
  let kr := uninit 8 184 64
  let buf ← indcpa_kem_dec P sk c buf
  let buf ← loop 32 buf fun i buf => do
    let v ← rd sk (P.SECRETKEYBYTES - 64 + i)
    wr buf (32 + i) v
  let kr ← lib.hash_g kr 0 buf 0 64
  let cmp ← indcpa_kem_enc lib P buf 0 kr 32 sk P.INDCPA_SECRETKEYBYTES cmp
  let fail ← verify c 0 cmp 0 P.BYTES_CCA_DEC
  let kr ← lib.hash_h kr 32 c 0 P.BYTES_CCA_DEC
  let kr ← cmov kr 0 sk (P.SECRETKEYBYTES - KEYBYTES) KEYBYTES (BitVec.ofInt 8 fail)
  let k ← lib.hash_h k 0 kr 0 64
  pure (0, k)

end Saber.Avx
