import Verif.Model.U.Indcpa
import Verif.Model.Verify
/-!
# `Variants/uSaber-90s/ref/kem.c`
-/
namespace Saber.U

/-- `crypto_kem_keypair` (kem.c:14-27).  Returns the return code, `pk`, `sk` and the generator state. -/
def crypto_kem_keypair {σ : Type} (cfg : Cfg) (rb : RandomBytes σ) (pk sk : List Byte) (st : σ) :
    CM (Int × List Byte × List Byte × σ) := do
  let (pk, sk, st) ← indcpa_kem_keypair cfg rb pk sk st
  let sk ← loop cfg.INDCPA_PUBLICKEYBYTES sk fun i sk => do
    let v ← rd pk i
    wr sk (i + cfg.INDCPA_SECRETKEYBYTES) v
  let sk ← hash_h cfg sk (cfg.SECRETKEYBYTES - 64) pk 0 cfg.INDCPA_PUBLICKEYBYTES
  let (sk, st) ← rb sk (cfg.SECRETKEYBYTES - KEYBYTES) KEYBYTES st
  pure (0, pk, sk, st)

/-- `crypto_kem_enc` (kem.c:29-51).  Returns the return code, `c`, `k` and the generator state. -/
def crypto_kem_enc {σ : Type} (cfg : Cfg) (rb : RandomBytes σ) (c k pk : List Byte) (st : σ) :
    CM (Int × List Byte × List Byte × σ) := do
  let kr := uninit 8 60 64
  let buf := uninit 8 61 64
  let (buf, st) ← rb buf 0 32 st
  let buf ← hash_h cfg buf 0 buf 0 32
  let buf ← hash_h cfg buf 32 pk 0 cfg.INDCPA_PUBLICKEYBYTES
  let kr ← hash_g cfg kr 0 buf 0 64
  let c ← indcpa_kem_enc cfg buf 0 kr 32 pk 0 c
  let kr ← hash_h cfg kr 32 c 0 cfg.BYTES_CCA_DEC
  let k ← hash_h cfg k 0 kr 0 64
  pure (0, c, k, st)

/-- `crypto_kem_dec` (kem.c:53-80).  Returns the return code and `k`. -/
def crypto_kem_dec (cfg : Cfg) (k c sk : List Byte) : CM (Int × List Byte) := do
  let cmp := uninit 8 62 cfg.BYTES_CCA_DEC
  let buf := uninit 8 63 64
  let kr := uninit 8 64 64
  let buf ← indcpa_kem_dec cfg sk c buf
  let buf ← loop 32 buf fun i buf => do
    let v ← rd sk (cfg.SECRETKEYBYTES - 64 + i)
    wr buf (32 + i) v
  let kr ← hash_g cfg kr 0 buf 0 64
  let cmp ← indcpa_kem_enc cfg buf 0 kr 32 sk cfg.INDCPA_SECRETKEYBYTES cmp
  let fail ← verify c 0 cmp 0 cfg.BYTES_CCA_DEC
  let kr ← hash_h cfg kr 32 c 0 cfg.BYTES_CCA_DEC
  let kr ← cmov kr 0 sk (cfg.SECRETKEYBYTES - KEYBYTES) KEYBYTES (BitVec.ofInt 8 fail)
  let k ← hash_h cfg k 0 kr 0 64
  pure (0, k)

end Saber.U
