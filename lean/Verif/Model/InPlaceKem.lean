import Verif.Model.Kem
import Verif.Model.InPlace
/-!
# `kem.c` and `SABER_indcpa.c` with all arguments in one object

The caller of `crypto_kem_keypair`, `crypto_kem_enc` and `crypto_kem_dec` may pass pointers into one object, also overlapping ones.  Here `mem` is this object, the
arguments are offsets, and every access through an argument is an access to the current content of `mem`.  The local arrays are separate objects.
-/
namespace Saber.InPlace

/-- `indcpa_kem_enc` (Reference_Implementation_KEM/SABER_indcpa.c:45-80) with `pk` and `ciphertext` pointing into `mem`; `m` and `seed_sp` point into local arrays of
the caller. -/
def indcpa_kem_enc (P : PSet) (m : List Byte) (mOff : Nat) (seed_sp : List Byte) (seedOff : Nat) (mem : List Byte) (pkOff cOff : Nat) : CM (List Byte) := do
  let A ← GenMatrix P (uninitMat 44 P.L) mem (pkOff + P.POLYVECCOMPRESSEDBYTES)
  let sp ← GenSecret P (uninitVec 45 P.L) seed_sp seedOff
  let bp ← MatrixVectorMul P A sp (zeroVec P.L) 0
  let bp ← roundVec P bp
  let mem ← POLVECp2BS P mem cOff bp
  let b ← BS2POLVECp P mem pkOff (uninitVec 46 P.L)
  let vp ← InnerProd P b sp (List.replicate N 0)
  let mp ← BS2POLmsg m mOff (uninit 16 47 N)
  let vp ← encRound P vp mp
  POLT2BS P mem (cOff + P.POLYVECCOMPRESSEDBYTES) vp

/-- `crypto_kem_enc` (Reference_Implementation_KEM/kem.c:27-49) with `c`, `k` and `pk` pointing to `mem[cOff]`, `mem[kOff]` and `mem[pkOff]` -/
def crypto_kem_enc {σ : Type} (P : PSet) (rb : RandomBytes σ) (mem : List Byte) (cOff kOff pkOff : Nat) (st : σ) : CM (Int × List Byte × σ) := do
  let kr := uninit 8 60 64
  let buf := uninit 8 61 64
  let (buf, st) ← rb buf 0 32 st
  let buf ← sha3_256 buf 0 0 32
  let buf ← Saber.sha3_256 buf 32 mem pkOff P.INDCPA_PUBLICKEYBYTES
  let kr ← Saber.sha3_512 kr 0 buf 0 64
  let mem ← indcpa_kem_enc P buf 0 kr 32 mem pkOff cOff
  let kr ← Saber.sha3_256 kr 32 mem cOff P.BYTES_CCA_DEC
  let mem ← Saber.sha3_256 mem kOff kr 0 64
  pure (0, mem, st)

/-- `crypto_kem_dec` (Reference_Implementation_KEM/kem.c:51-78) with `k`, `c` and `sk` pointing to `mem[kOff]`, `mem[cOff]` and `mem[skOff]`.  `indcpa_kem_dec` writes
only to `buf`; it gets `mem` from the two pointers on. -/
def crypto_kem_dec (P : PSet) (mem : List Byte) (kOff cOff skOff : Nat) : CM (Int × List Byte) := do
  let cmp := uninit 8 62 P.BYTES_CCA_DEC
  let buf := uninit 8 63 64
  let kr := uninit 8 64 64
  let buf ← indcpa_kem_dec P (mem.drop skOff) (mem.drop cOff) buf
  let buf ← loop 32 buf fun i buf => do
    let v ← rd mem (skOff + (P.SECRETKEYBYTES - 64) + i)
    wr buf (32 + i) v
  let kr ← Saber.sha3_512 kr 0 buf 0 64
  let cmp ← Saber.indcpa_kem_enc P buf 0 kr 32 mem (skOff + P.INDCPA_SECRETKEYBYTES) cmp
  let fail ← verify mem cOff cmp 0 P.BYTES_CCA_DEC
  let kr ← Saber.sha3_256 kr 32 mem cOff P.BYTES_CCA_DEC
  let kr ← cmov kr 0 mem (skOff + (P.SECRETKEYBYTES - KEYBYTES)) KEYBYTES (BitVec.ofInt 8 fail)
  let mem ← Saber.sha3_256 mem kOff kr 0 64
  pure (0, mem)

/-- `indcpa_kem_keypair` (Reference_Implementation_KEM/SABER_indcpa.c:14-43) with `pk` and `sk` pointing to `mem[pkOff]` and `mem[skOff]` -/
def indcpa_kem_keypair {σ : Type} (P : PSet) (rb : RandomBytes σ) (mem : List Byte) (pkOff skOff : Nat) (st : σ) : CM (List Byte × σ) := do
  let (seed_A, st) ← rb (uninit 8 40 SEEDBYTES) 0 SEEDBYTES st
  let seed_A ← shake128 seed_A 0 SEEDBYTES 0 SEEDBYTES
  let (seed_s, st) ← rb (uninit 8 41 NOISE_SEEDBYTES) 0 NOISE_SEEDBYTES st
  let A ← GenMatrix P (uninitMat 42 P.L) seed_A 0
  let s ← GenSecret P (uninitVec 43 P.L) seed_s 0
  let b ← MatrixVectorMul P A s (zeroVec P.L) 1
  let b ← roundVec P b
  let mem ← POLVECq2BS P mem skOff s
  let mem ← POLVECp2BS P mem pkOff b
  let mem ← memcpy mem (pkOff + P.POLYVECCOMPRESSEDBYTES) seed_A 0 SEEDBYTES
  pure (mem, st)

/-- `crypto_kem_keypair` (Reference_Implementation_KEM/kem.c:12-25) with `pk` and `sk` pointing to `mem[pkOff]` and `mem[skOff]` -/
def crypto_kem_keypair {σ : Type} (P : PSet) (rb : RandomBytes σ) (mem : List Byte) (pkOff skOff : Nat) (st : σ) : CM (Int × List Byte × σ) := do
  let (mem, st) ← indcpa_kem_keypair P rb mem pkOff skOff st
  let mem ← loop P.INDCPA_PUBLICKEYBYTES mem fun i mem => do
    let v ← rd mem (pkOff + i)
    wr mem (skOff + P.INDCPA_SECRETKEYBYTES + i) v
  let mem ← sha3_256 mem (skOff + (P.SECRETKEYBYTES - 64)) pkOff P.INDCPA_PUBLICKEYBYTES
  let (mem, st) ← rb mem (skOff + (P.SECRETKEYBYTES - KEYBYTES)) KEYBYTES st
  pure (0, mem, st)

end Saber.InPlace
