import Verif.Model.Avx.Toom
import Verif.Model.Avx.Pack
import Verif.Model.Indcpa
/-!
# `AVX_Implementation_KEM/SABER_indcpa.c`

`Variants/uSaber-90s/avx2/SABER_indcpa.c` has the same text except that `prf` stands in the place of `shake128`; so the symmetric functions
are a parameter of the model.  The files included from `polymul` and `pack_unpack.c`, `cbd.c` and `verify.c` are the same in both
directories.  The cycle counters and the variables that are set and not used are left out.
-/
namespace Saber.Avx

/-- The symmetric functions an implementation is linked with.  Where the code passes the same array as output and input, the model passes
the array before the call as input; the functions read all of the input before they write the output. -/
structure Lib where
  /-- `shake128` (AVX_Implementation_KEM/fips202.c) or `prf`: output, offset, length, input, offset, length -/
  prf : List Byte → Nat → Nat → List Byte → Nat → Nat → CM (List Byte)
  /-- `sha3_256` (AVX_Implementation_KEM/fips202.c) or `hash_h` -/
  hash_h : List Byte → Nat → List Byte → Nat → Nat → CM (List Byte)
  /-- `sha3_512` (AVX_Implementation_KEM/fips202.c) or `hash_g` -/
  hash_g : List Byte → Nat → List Byte → Nat → Nat → CM (List Byte)

/-- The library of AVX_Implementation_KEM: `shake128`, `sha3_256`, `sha3_512` of its fips202.c, whose text is that of the reference
implementation. -/
def fips202 : Lib := ⟨shake128, sha3_256, sha3_512⟩

/-! ### Vectors -/

/-- `_mm256_loadu_si256` from `&row[off]`: 32 bytes of the array. -/
def loadu (row : List (BitVec 16)) (off : Nat) : CM Vec :=
  if off + 16 ≤ row.length then .ok fun l => row.getD (off + l.val) 0 else .error .oob

/-- `mask_ar` after the assignments at SABER_indcpa.c:176, 291 and 471. -/
def mask_ar : List (BitVec 64) := [~~~0, ~~~0, ~~~0, ~~~0]

/-- 32-bit element `i` of `mask_load` (SABER_indcpa.c:177, 292 and 472). -/
def mask_load (i : Nat) : BitVec 32 := ((mask_ar.getD (i / 2) 0) >>> (32 * (i % 2))).setWidth 32

/-- `_mm256_maskstore_epi32` to `&row[off]`: the 32-bit elements whose mask has the top bit set are stored. -/
def maskstore (row : List (BitVec 16)) (off : Nat) (mask : Nat → BitVec 32) (v : Vec) : CM (List (BitVec 16)) :=
  loop 8 row fun i row =>
    if (mask i).msb then do
      let row ← wr row (off + 2 * i) (v.lane (2 * i))
      wr row (off + 2 * i + 1) (v.lane (2 * i + 1))
    else .ok row

/-- `_mm256_set1_epi16` -/
def set1 (x : Int) : Vec := fun _ => BitVec.ofInt 16 x

/-- An uninitialised `__m256i x[L][n]`. -/
def uninitVV (tag L n : Nat) : List (List Vec) := (List.range L).map fun i => uninitVecs (100 * tag + i) n

/-- The innermost loop of SABER_indcpa.c:203-209, 212-218, 325-329, 332-338, 377-381 and 488-493: the 16 vectors of one polynomial. -/
def loadRow (dst : List Vec) (row : List (BitVec 16)) : CM (List Vec) :=
  loop (N / 16) dst fun j dst => do
    let v ← loadu row (j * 16)
    wr dst j v

/-- The loops at SABER_indcpa.c:203-209, 325-329, 377-381 and 488-493 (the last one fills two arrays; here they are filled one after the
other). -/
def loadVec (P : PSet) (dst : List (List Vec)) (src : List (List (BitVec 16))) : CM (List (List Vec)) :=
  loop P.L dst fun i dst => do
    let row ← rd src i
    let d ← rd dst i
    let d ← loadRow d row
    wr dst i d

/-- The loops at SABER_indcpa.c:212-218 and 332-338. -/
def loadMat (P : PSet) (dst : List (List (List Vec))) (src : List (List (List (BitVec 16)))) : CM (List (List (List Vec))) :=
  loop P.L dst fun i dst => do
    let row ← rd src i
    let d ← rd dst i
    let d ← loadVec P d row
    wr dst i d

/-- The loop at SABER_indcpa.c:247-249, 363-365, 426-429 and 514-516: the 16 vectors of one polynomial are stored. -/
def storeRow (row : List (BitVec 16)) (v : List Vec) : CM (List (BitVec 16)) :=
  loop (N / 16) row fun j row => do
    let x ← rd v j
    maskstore row (j * 16) mask_load x

/-- The loops at SABER_indcpa.c:246-250 and 362-366. -/
def storeVec (P : PSet) (dst : List (List (BitVec 16))) (v : List (List Vec)) : CM (List (List (BitVec 16))) :=
  loop P.L dst fun i dst => do
    let vi ← rd v i
    let row ← rd dst i
    let row ← storeRow row vi
    wr dst i row

/-! ### Sampling -/

/-- `BS2POLq` (SABER_indcpa.c:81-102); the assignments are those of the reference implementation's function. -/
def BS2POLq (bytes : List Byte) (off : Nat) (data : List (BitVec 16)) : CM (List (BitVec 16)) := Saber.BS2POLq bytes off data

/-- The loop over `k` in `GenMatrix` (SABER_indcpa.c:123-125). -/
def modRow (dst temp_ar : List (BitVec 16)) : CM (List (BitVec 16)) :=
  loop N dst fun k dst => do
    let x ← rd temp_ar k
    wr dst k (x &&& 8191)

/-- `GenMatrix` (SABER_indcpa.c:105-128); `seed` points to `seed[0]`. -/
def GenMatrix (lib : Lib) (P : PSet) (a : List (List (List (BitVec 16)))) (seed : List Byte) : CM (List (List (List (BitVec 16)))) := do
  let one_vector := 13 * N / 8
  let byte_bank_length := P.L * P.L * one_vector
  let buf ← lib.prf (uninit 8 130 byte_bank_length) 0 byte_bank_length seed 0 SEEDBYTES
  let (a, _) ← loop P.L (a, uninit 16 131 N) fun i (a, temp_ar) =>
    loop P.L (a, temp_ar) fun j (a, temp_ar) => do
      let temp_ar ← BS2POLq buf ((i * P.L + j) * one_vector) temp_ar
      let ai ← rd a i
      let aij ← rd ai j
      let aij ← modRow aij temp_ar
      let ai ← wr ai j aij
      let a ← wr a i ai
      .ok (a, temp_ar)
  .ok a

/-- `GenSecret` (SABER_indcpa.c:130-145); `seed` points to `seed[seedOff]`. -/
def GenSecret (lib : Lib) (P : PSet) (r : List (List (BitVec 16))) (seed : List Byte) (seedOff : Nat) : CM (List (List (BitVec 16))) := do
  let buf_size := P.MU * N * P.L / 8
  let buf ← lib.prf (uninit 8 132 buf_size) 0 buf_size seed seedOff NOISE_SEEDBYTES
  loop P.L r fun i r => do
    let ri ← rd r i
    let ri ← cbd P ri buf (i * P.MU * N / 8)
    wr r i ri

/-! ### Products -/

/-- The loops at SABER_indcpa.c:224-226, 342-344 and 504-506. -/
def evalAll (P : PSet) (sk_avx b_bucket : List (List Vec)) : CM (List (List Vec)) :=
  loop P.L b_bucket fun j b_bucket => do
    let s ← rd sk_avx j
    let b ← rd b_bucket j
    let b ← TC_eval s b
    wr b_bucket j b

/-- `matrix_vector_mul` (SABER_indcpa.c:554-576); the new content of `res_avx` is returned. -/
def matrix_vector_mul (P : PSet) (a : List (List (List Vec))) (b_bucket res_avx : List (List Vec)) (isTranspose : Int) :
    CM (List (List Vec)) := do
  let (_, res_avx) ← loop P.L (uninitVecs 133 128, res_avx) fun i (c_bucket, res_avx) => do
    let c_bucket ← loop P.L c_bucket fun j c_bucket => do
      let b ← rd b_bucket j
      if isTranspose = 0 then
        let ai ← rd a i
        let aij ← rd ai j
        toom_cook_4way_avx_n1 aij b c_bucket j
      else
        let aj ← rd a j
        let aji ← rd aj i
        toom_cook_4way_avx_n1 aji b c_bucket j
    let ri ← rd res_avx i
    let (c_bucket, ri) ← TC_interpol c_bucket ri
    let res_avx ← wr res_avx i ri
    .ok (c_bucket, res_avx)
  .ok res_avx

/-- `vector_vector_mul` (SABER_indcpa.c:578-588); the new content of `res_avx` is returned. -/
def vector_vector_mul (P : PSet) (a_avx b_bucket : List (List Vec)) (res_avx : List Vec) : CM (List Vec) := do
  let c_bucket ← loop P.L (uninitVecs 134 128) fun i c_bucket => do
    let a ← rd a_avx i
    let b ← rd b_bucket i
    toom_cook_4way_avx_n1 a b c_bucket i
  let (_, res_avx) ← TC_interpol c_bucket res_avx
  .ok res_avx

/-! ### Encryption scheme -/

/-- `h1` (SABER_indcpa.c:15) -/
def h1 : Int := 4
/-- `h2` (SABER_indcpa.c:17) -/
def h2 (P : PSet) : Int := 2 ^ (EP - 2) - 2 ^ (EP - P.ET - 1) + 2 ^ (EQ - EP - 1)

/-- `H1_avx` (SABER_indcpa.c:182 and 301) -/
def H1_avx : Vec := set1 h1
/-- `mod` (SABER_indcpa.c:179 and 294) -/
def mod : Vec := set1 8191
/-- `mod_p` (SABER_indcpa.c:295) -/
def mod_p : Vec := set1 1023

/-- The loops at SABER_indcpa.c:232-238 and 351-358; the three assignments to `res_avx[i][j]` are one step. -/
def truncVec (P : PSet) (res_avx : List (List Vec)) : CM (List (List Vec)) :=
  loop P.L res_avx fun i res_avx =>
    loop (N / 16) res_avx fun j res_avx => do
      let ri ← rd res_avx i
      let x ← rd ri j
      let ri ← wr ri j fun l => ((x l + H1_avx l) >>> (EQ - EP)) &&& mod l
      wr res_avx i ri

/-- `indcpa_kem_keypair` (SABER_indcpa.c:153-258); `pk`, `sk` are the objects passed by the caller.  Returns `pk`, `sk`, state. -/
def indcpa_kem_keypair {σ : Type} (lib : Lib) (P : PSet) (rb : RandomBytes σ) (pk sk : List Byte) (st : σ) :
    CM (List Byte × List Byte × σ) := do
  let (seed, st) ← rb (uninit 8 140 SEEDBYTES) 0 SEEDBYTES st
  let seed ← lib.prf seed 0 SEEDBYTES seed 0 SEEDBYTES
  let (noiseseed, st) ← rb (uninit 8 141 32) 0 32 st
  let a ← GenMatrix lib P (uninitMat 142 P.L) seed
  let skpv1 ← GenSecret lib P (uninitVec 143 P.L) noiseseed 0
  let sk_avx ← loadVec P (uninitVV 144 P.L 16) skpv1
  let a_avx ← loadMat P ((List.range P.L).map fun i => uninitVV (14500 + i) P.L 16) a
  let b_bucket ← evalAll P sk_avx (uninitVV 146 P.L 64)
  let res_avx ← matrix_vector_mul P a_avx b_bucket (uninitVV 147 P.L 16) 1
  let res_avx ← truncVec P res_avx
  let sk ← POLVEC2BS P sk skpv1 8192
  let skpv1 ← storeVec P skpv1 res_avx
  let pk ← POLVEC2BS P pk skpv1 1024
  let pk ← memcpy pk P.POLYVECCOMPRESSEDBYTES seed 0 SEEDBYTES
  pure (pk, sk, st)

/-- The loop at SABER_indcpa.c:398-400. -/
def addH1 (v : List Vec) : CM (List Vec) :=
  loop (N / 16) v fun i v => do
    let x ← rd v i
    wr v i fun l => x l + H1_avx l

/-- The loop at SABER_indcpa.c:411-415; the two assignments to `message_avx[i]` are one step. -/
def encodeMessage (message_avx : List Vec) (message : List (BitVec 16)) : CM (List Vec) :=
  loop (N / 16) message_avx fun i message_avx => do
    let x ← loadu message (i * 16)
    wr message_avx i fun l => x l <<< (EP - 1)

/-- The loop at SABER_indcpa.c:418-423; the three assignments to `vprime_avx[k]` are one step. -/
def truncEnc (P : PSet) (vprime_avx message_avx : List Vec) : CM (List Vec) :=
  loop (N / 16) vprime_avx fun k vprime_avx => do
    let x ← rd vprime_avx k
    let m ← rd message_avx k
    wr vprime_avx k fun l => ((x l - m l) &&& mod_p l) >>> (EP - P.ET)

/-- `indcpa_kem_enc` (SABER_indcpa.c:261-444); the pointers `message_received`, `noiseseed`, `pk` point into the given objects at the given
offsets.  The loop at lines 403-409 has the text of the reference implementation's `BS2POLmsg`. -/
def indcpa_kem_enc (lib : Lib) (P : PSet) (message_received : List Byte) (mOff : Nat) (noiseseed : List Byte) (noiseOff : Nat)
    (pk : List Byte) (pkOff : Nat) (ciphertext : List Byte) : CM (List Byte) := do
  let seed ← memcpy (uninit 8 150 SEEDBYTES) 0 pk (pkOff + P.POLYVECCOMPRESSEDBYTES) SEEDBYTES
  let a ← GenMatrix lib P (uninitMat 151 P.L) seed
  let skpv1 ← GenSecret lib P (uninitVec 152 P.L) noiseseed noiseOff
  let sk_avx ← loadVec P (uninitVV 153 P.L 16) skpv1
  let a_avx ← loadMat P ((List.range P.L).map fun i => uninitVV (15400 + i) P.L 16) a
  let b_bucket ← evalAll P sk_avx (uninitVV 155 P.L 64)
  let res_avx ← matrix_vector_mul P a_avx b_bucket (uninitVV 156 P.L 16) 0
  let res_avx ← truncVec P res_avx
  let temp ← storeVec P (uninitVec 157 P.L) res_avx
  let ciphertext ← POLVEC2BS P ciphertext temp 1024
  let pkcl ← BS2POLVEC P pk pkOff (uninitVec 158 P.L) 1024
  let pkcl_avx ← loadVec P (uninitVV 159 P.L 16) pkcl
  let vprime_avx ← vector_vector_mul P pkcl_avx b_bucket (uninitVecs 160 16)
  let vprime_avx ← addH1 vprime_avx
  let message ← BS2POLmsg message_received mOff (uninit 16 161 256)
  let message_avx ← encodeMessage (uninitVecs 162 16) message
  let vprime_avx ← truncEnc P vprime_avx message_avx
  let temp0 ← rd temp 0
  let temp0 ← storeRow temp0 vprime_avx
  let msk_c ← SABER_pack P (uninit 8 163 P.SCALEBYTES_KEM) temp0
  memcpy ciphertext P.POLYVECCOMPRESSEDBYTES msk_c 0 P.SCALEBYTES_KEM

/-- The bitwise and of an `int` (two's complement) with a non-negative constant. -/
def iand (x : Int) (m : Nat) : Int := ((BitVec.ofInt 32 x &&& BitVec.ofNat 32 m).toNat : Int)

/-- The loop at SABER_indcpa.c:533-535. -/
def decRound (P : PSet) (message_dec_unpacked op : List (BitVec 16)) : CM (List (BitVec 16)) :=
  loop N message_dec_unpacked fun i m => do
    let x ← rd m i
    let o ← rd op i
    wr m i (u16 (isar (iand (← isub (← iadd (prom x) (h2 P)) (← ishl (prom o) (EP - P.ET))) 1023) (EP - 1)))

/-- `POL2MSG` (SABER_indcpa.c:541-552); the new content of `message_dec` is returned.  The shifted value is an `int` below `2^23`. -/
def POL2MSG (message_dec_unpacked : List (BitVec 16)) (message_dec : List Byte) : CM (List Byte) :=
  loop KEYBYTES message_dec fun j message_dec => do
    let message_dec ← wr message_dec j 0
    loop 8 message_dec fun i message_dec => do
      let b ← rdN message_dec j
      let d ← rdN message_dec_unpacked (j * 8 + i)
      wr message_dec j (n8 (b ||| (d <<< i)))

/-- The loop at SABER_indcpa.c:495-497: `v_avx[i] = v_avx[i] ^ v_avx[i]` on uninitialised elements. -/
def clear (v : List Vec) : CM (List Vec) :=
  loop (N / 16) v fun i v => do
    let x ← rd v i
    wr v i fun l => x l ^^^ x l

/-- `indcpa_kem_dec` (SABER_indcpa.c:447-539); `sk` and `ciphertext` point to the start of the given objects; the new content of
`message_dec` is returned. -/
def indcpa_kem_dec (P : PSet) (sk ciphertext message_dec : List Byte) : CM (List Byte) := do
  let sksv ← BS2POLVEC P sk 0 (uninitVec 170 P.L) 8192
  let pksv ← BS2POLVEC P ciphertext 0 (uninitVec 171 P.L) 1024
  let sksv_avx ← loadVec P (uninitVV 172 P.L 16) sksv
  let pksv_avx ← loadVec P (uninitVV 173 P.L 16) pksv
  let v_avx ← clear (uninitVecs 174 16)
  let b_bucket ← evalAll P sksv_avx (uninitVV 175 P.L 64)
  let v_avx ← vector_vector_mul P pksv_avx b_bucket v_avx
  let message_dec_unpacked ← storeRow (uninit 16 176 256) v_avx
  let scale_ar ← memcpy (uninit 8 177 P.SCALEBYTES_KEM) 0 ciphertext P.POLYVECCOMPRESSEDBYTES P.SCALEBYTES_KEM
  let op ← SABER_un_pack P scale_ar (uninit 16 178 N)
  let message_dec_unpacked ← decRound P message_dec_unpacked op
  POL2MSG message_dec_unpacked message_dec

end Saber.Avx
