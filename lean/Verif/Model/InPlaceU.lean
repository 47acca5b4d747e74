import Verif.Model.U.Kem
/-!
# `Variants/uSaber-90s/ref/kem.c` with all arguments in one object
-/
namespace Saber.U.InPlace

/-- `crypto_kem_dec` (Variants/uSaber-90s/ref/kem.c:53-80) with `k`, `c` and `sk` pointing to `mem[kOff]`, `mem[cOff]` and `mem[skOff]`.  `indcpa_kem_dec` writes only
to `buf`; it gets `mem` from the two pointers on. -/
def crypto_kem_dec (cfg : Cfg) (mem : List Byte) (kOff cOff skOff : Nat) : CM (Int × List Byte) := do
  let cmp := uninit 8 62 cfg.BYTES_CCA_DEC
  let buf := uninit 8 63 64
  let kr := uninit 8 64 64
  let buf ← indcpa_kem_dec cfg (mem.drop skOff) (mem.drop cOff) buf
  let buf ← loop 32 buf fun i buf => do
    let v ← rd mem (skOff + (cfg.SECRETKEYBYTES - 64) + i)
    wr buf (32 + i) v
  let kr ← hash_g cfg kr 0 buf 0 64
  let cmp ← indcpa_kem_enc cfg buf 0 kr 32 mem (skOff + cfg.INDCPA_SECRETKEYBYTES) cmp
  let fail ← verify mem cOff cmp 0 cfg.BYTES_CCA_DEC
  let kr ← hash_h cfg kr 32 mem cOff cfg.BYTES_CCA_DEC
  let kr ← cmov kr 0 mem (skOff + (cfg.SECRETKEYBYTES - KEYBYTES)) KEYBYTES (BitVec.ofInt 8 fail)
  let mem ← hash_h cfg mem kOff kr 0 64
  pure (0, mem)

/-- `indcpa_kem_enc` (Variants/uSaber-90s/ref/SABER_indcpa.c:51-88) with `pk` and `ciphertext` pointing into `mem`; `m` and `seed_sp` point into local arrays of the
caller. -/
def indcpa_kem_enc (c : Cfg) (m : List Byte) (mOff : Nat) (seed_sp : List Byte) (seedOff : Nat) (mem : List Byte) (pkOff cOff : Nat) : CM (List Byte) := do
  let A ← GenMatrix c (uninitMat 44 c.P.L) mem (pkOff + c.POLYVECCOMPRESSEDBYTES)
  let sp ← GenSecret c (uninitVec 45 c.P.L) seed_sp seedOff
  let bp ← MatrixVectorMul c.P A sp (zeroVec c.P.L) 0
  let bp ← roundVec c bp
  let mem ← POLVECp2BS c.P mem cOff bp
  let b ← BS2POLVECp c.P mem pkOff (uninitVec 46 c.P.L)
  let vp ← InnerProd c.P b sp (List.replicate N 0)
  let mp ← BS2POLmsg m mOff (uninit 16 47 N)
  let vp ← encRound c vp mp
  POLT2BS c.P mem (cOff + c.POLYVECCOMPRESSEDBYTES) vp

/-- `crypto_kem_enc` (Variants/uSaber-90s/ref/kem.c:29-51) with `c`, `k` and `pk` pointing to `mem[cOff]`, `mem[kOff]` and `mem[pkOff]` -/
def crypto_kem_enc {σ : Type} (cfg : Cfg) (rb : RandomBytes σ) (mem : List Byte) (cOff kOff pkOff : Nat) (st : σ) : CM (Int × List Byte × σ) := do
  let kr := uninit 8 60 64
  let buf := uninit 8 61 64
  let (buf, st) ← rb buf 0 32 st
  let buf ← hash_h cfg buf 0 buf 0 32
  let buf ← hash_h cfg buf 32 mem pkOff cfg.INDCPA_PUBLICKEYBYTES
  let kr ← hash_g cfg kr 0 buf 0 64
  let mem ← indcpa_kem_enc cfg buf 0 kr 32 mem pkOff cOff
  let kr ← hash_h cfg kr 32 mem cOff cfg.BYTES_CCA_DEC
  let mem ← hash_h cfg mem kOff kr 0 64
  pure (0, mem, st)

/-- `indcpa_kem_keypair` (Variants/uSaber-90s/ref/SABER_indcpa.c:19-49) with `pk` and `sk` pointing to `mem[pkOff]` and `mem[skOff]` -/
def indcpa_kem_keypair {σ : Type} (c : Cfg) (rb : RandomBytes σ) (mem : List Byte) (pkOff skOff : Nat) (st : σ) : CM (List Byte × σ) := do
  let (seed_A, st) ← rb (uninit 8 40 SEEDBYTES) 0 SEEDBYTES st
  let seed_A ← prf c seed_A 0 SEEDBYTES seed_A 0 SEEDBYTES
  let (seed_s, st) ← rb (uninit 8 41 NOISE_SEEDBYTES) 0 NOISE_SEEDBYTES st
  let A ← GenMatrix c (uninitMat 42 c.P.L) seed_A 0
  let s ← GenSecret c (uninitVec 43 c.P.L) seed_s 0
  let b ← MatrixVectorMul c.P A s (zeroVec c.P.L) 1
  let b ← roundVec c b
  let mem ← POLVECq2BS c mem skOff s
  let mem ← POLVECp2BS c.P mem pkOff b
  let mem ← memcpy mem (pkOff + c.POLYVECCOMPRESSEDBYTES) seed_A 0 SEEDBYTES
  pure (mem, st)

/-- `crypto_kem_keypair` (Variants/uSaber-90s/ref/kem.c:14-27) with `pk` and `sk` pointing to `mem[pkOff]` and `mem[skOff]`.  The hash reads all of its input before it
writes (C27). -/
def crypto_kem_keypair {σ : Type} (cfg : Cfg) (rb : RandomBytes σ) (mem : List Byte) (pkOff skOff : Nat) (st : σ) : CM (Int × List Byte × σ) := do
  let (mem, st) ← indcpa_kem_keypair cfg rb mem pkOff skOff st
  let mem ← loop cfg.INDCPA_PUBLICKEYBYTES mem fun i mem => do
    let v ← rd mem (pkOff + i)
    wr mem (skOff + cfg.INDCPA_SECRETKEYBYTES + i) v
  let mem ← hash_h cfg mem (skOff + (cfg.SECRETKEYBYTES - 64)) mem pkOff cfg.INDCPA_PUBLICKEYBYTES
  let (mem, st) ← rb mem (skOff + (cfg.SECRETKEYBYTES - KEYBYTES)) KEYBYTES st
  pure (0, mem, st)

end Saber.U.InPlace
