import Verif.Model.Avx.Kem
/-!
# `kem.c` and `SABER_indcpa.c` of the AVX2 implementation with all arguments in one object

As in `Verif.Model.InPlaceKem`: `mem` is the object into which all pointers of the caller point, and the arguments are offsets.
-/
namespace Saber.Avx.InPlace

/-- A call with a pointer to `mem[off]` of a function whose model takes the object from the pointer on. -/
def at_ (mem : List Byte) (off : Nat) (f : List Byte → CM (List Byte)) : CM (List Byte) := do
  let t ← f (mem.drop off)
  pure (mem.take off ++ t)

/-- `indcpa_kem_keypair` (AVX_Implementation_KEM/SABER_indcpa.c:153-258) with `pk` and `sk` pointing to `mem[pkOff]` and `mem[skOff]` -/
def indcpa_kem_keypair {σ : Type} (lib : Lib) (P : PSet) (rb : RandomBytes σ) (mem : List Byte) (pkOff skOff : Nat) (st : σ) : CM (List Byte × σ) := do
  let (seed, st) ← rb (uninit 8 140 SEEDBYTES) 0 SEEDBYTES st
  let seed ← lib.prf seed 0 SEEDBYTES seed 0 SEEDBYTES
  let (noiseseed, st) ← rb (uninit 8 141 32) 0 32 st
  let a ← GenMatrix lib P (uninitMat 142 P.L) seed
  let skpv1 ← GenSecret lib P (uninitVec 143 P.L) noiseseed 0
  let sk_avx ← loadVec P (uninitVV 144 P.L 16) skpv1
  let a_avx ← loadMat P ((List.range P.L).map fun i => uninitVV (14500 + i) P.L 16) a
  let b_bucket ← evalAll P sk_avx (uninitVV 146 P.L 64)
  let res_avx ← matrix_vector_mul P a_avx b_bucket (uninitVV 147 P.L 16) 1
  let res_avx ← truncVec P res_avx
  let mem ← at_ mem skOff fun sk => POLVEC2BS P sk skpv1 8192
  let skpv1 ← storeVec P skpv1 res_avx
  let mem ← at_ mem pkOff fun pk => POLVEC2BS P pk skpv1 1024
  let mem ← memcpy mem (pkOff + P.POLYVECCOMPRESSEDBYTES) seed 0 SEEDBYTES
  pure (mem, st)

/-- `indcpa_kem_enc` (AVX_Implementation_KEM/SABER_indcpa.c:261-444) with `pk` and `ciphertext` pointing into `mem`; `message_received` and `noiseseed` point into
local arrays of the caller. -/
def indcpa_kem_enc (lib : Lib) (P : PSet) (message_received : List Byte) (mOff : Nat) (noiseseed : List Byte) (noiseOff : Nat)
    (mem : List Byte) (pkOff cOff : Nat) : CM (List Byte) := do
  let seed ← memcpy (uninit 8 150 SEEDBYTES) 0 mem (pkOff + P.POLYVECCOMPRESSEDBYTES) SEEDBYTES
  let a ← GenMatrix lib P (uninitMat 151 P.L) seed
  let skpv1 ← GenSecret lib P (uninitVec 152 P.L) noiseseed noiseOff
  let sk_avx ← loadVec P (uninitVV 153 P.L 16) skpv1
  let a_avx ← loadMat P ((List.range P.L).map fun i => uninitVV (15400 + i) P.L 16) a
  let b_bucket ← evalAll P sk_avx (uninitVV 155 P.L 64)
  let res_avx ← matrix_vector_mul P a_avx b_bucket (uninitVV 156 P.L 16) 0
  let res_avx ← truncVec P res_avx
  let temp ← storeVec P (uninitVec 157 P.L) res_avx
  let mem ← at_ mem cOff fun ciphertext => POLVEC2BS P ciphertext temp 1024
  let pkcl ← BS2POLVEC P mem pkOff (uninitVec 158 P.L) 1024
  let pkcl_avx ← loadVec P (uninitVV 159 P.L 16) pkcl
  let vprime_avx ← vector_vector_mul P pkcl_avx b_bucket (uninitVecs 160 16)
  let vprime_avx ← addH1 vprime_avx
  let message ← BS2POLmsg message_received mOff (uninit 16 161 256)
  let message_avx ← encodeMessage (uninitVecs 162 16) message
  let vprime_avx ← truncEnc P vprime_avx message_avx
  let temp0 ← rd temp 0
  let temp0 ← storeRow temp0 vprime_avx
  let msk_c ← SABER_pack P (uninit 8 163 P.SCALEBYTES_KEM) temp0
  memcpy mem (cOff + P.POLYVECCOMPRESSEDBYTES) msk_c 0 P.SCALEBYTES_KEM

/-- `crypto_kem_keypair` (AVX_Implementation_KEM/kem.c:19-41) with `pk` and `sk` pointing to `mem[pkOff]` and `mem[skOff]` -/
def crypto_kem_keypair {σ : Type} (lib : Lib) (P : PSet) (rb : RandomBytes σ) (mem : List Byte) (pkOff skOff : Nat) (st : σ) : CM (Int × List Byte × σ) := do
  let (mem, st) ← indcpa_kem_keypair lib P rb mem pkOff skOff st
  let mem ← loop P.INDCPA_PUBLICKEYBYTES mem fun i mem => do
    let v ← rd mem (pkOff + i)
    wr mem (skOff + P.INDCPA_SECRETKEYBYTES + i) v
  let mem ← lib.hash_h mem (skOff + (P.SECRETKEYBYTES - 64)) mem pkOff P.INDCPA_PUBLICKEYBYTES
  let (mem, st) ← rb mem (skOff + (P.SECRETKEYBYTES - KEYBYTES)) KEYBYTES st
  pure (0, mem, st)

/-- `crypto_kem_enc` (AVX_Implementation_KEM/kem.c:43-67) with `c`, `k` and `pk` pointing to `mem[cOff]`, `mem[kOff]` and `mem[pkOff]` -/
def crypto_kem_enc {σ : Type} (lib : Lib) (P : PSet) (rb : RandomBytes σ) (mem : List Byte) (cOff kOff pkOff : Nat) (st : σ) : CM (Int × List Byte × σ) := do
  let kr := uninit 8 180 64
  let buf := uninit 8 181 64
  let (buf, st) ← rb buf 0 32 st
  let buf ← lib.hash_h buf 0 buf 0 32
  let buf ← lib.hash_h buf 32 mem pkOff P.INDCPA_PUBLICKEYBYTES
  let kr ← lib.hash_g kr 0 buf 0 64
  let mem ← indcpa_kem_enc lib P buf 0 kr 32 mem pkOff cOff
  let kr ← lib.hash_h kr 32 mem cOff P.BYTES_CCA_DEC
  let mem ← lib.hash_h mem kOff kr 0 64
  pure (0, mem, st)

/-- `crypto_kem_dec` (AVX_Implementation_KEM/kem.c:70-99) with `k`, `c` and `sk` pointing to `mem[kOff]`, `mem[cOff]` and `mem[skOff]`.  `indcpa_kem_dec` writes only
to `buf`; it gets `mem` from the two pointers on. -/
def crypto_kem_dec (lib : Lib) (P : PSet) (mem : List Byte) (kOff cOff skOff : Nat) : CM (Int × List Byte) := do
  let cmp := uninit 8 182 P.BYTES_CCA_DEC
  let buf := uninit 8 183 64
  let kr := uninit 8 184 64
  let buf ← indcpa_kem_dec P (mem.drop skOff) (mem.drop cOff) buf
  let buf ← loop 32 buf fun i buf => do
    let v ← rd mem (skOff + (P.SECRETKEYBYTES - 64) + i)
    wr buf (32 + i) v
  let kr ← lib.hash_g kr 0 buf 0 64
  let cmp ← Avx.indcpa_kem_enc lib P buf 0 kr 32 mem (skOff + P.INDCPA_SECRETKEYBYTES) cmp
  let fail ← verify mem cOff cmp 0 P.BYTES_CCA_DEC
  let kr ← lib.hash_h kr 32 mem cOff P.BYTES_CCA_DEC
  let kr ← cmov kr 0 mem (skOff + (P.SECRETKEYBYTES - KEYBYTES)) KEYBYTES (BitVec.ofInt 8 fail)
  let mem ← lib.hash_h mem kOff kr 0 64
  pure (0, mem)

end Saber.Avx.InPlace
