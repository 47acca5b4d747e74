import Verif.Model.M0.Poly
import Verif.Model.Indcpa
/-!
# `Cortex-M0/saber-ref-mem/src/{SABER_indcpa.c,kem.c,verify.c}`

`mac` says how the multiply-accumulate of `school_book_mul2_16` behaves, see `Model/M0/PolyMul.lean`.
The first call of `GenMatrix_poly` for a matrix (`poly_number == 0`) overwrites all of its static variables except the byte buffer, so
the static state left behind by one matrix is irrelevant for the next one: the functions below take it as an argument `gs`
and do not return it.
-/
namespace Saber.M0

/-- The static variables of `GenMatrix_poly` that carry information from one call to the next (SABER_indcpa.c:118-124). -/
structure GS where
  /-- `shake_op_buf` -/
  buf : List Byte
  /-- `s` -/
  s : List (BitVec 64)
  /-- `pol_part_start_index` -/
  start : Nat
  /-- `left_over_bytes` -/
  left : Nat

/-- `byte_bank2pol_part` (SABER_indcpa.c:29-49); the new content of `pol_part` is returned. -/
def byte_bank2pol_part (bytes : List Byte) (pol_part : List (BitVec 16)) (start num_8coeff : Nat) : CM (List (BitVec 16)) :=
  loop num_8coeff pol_part fun j data => do
    let b0 ← rdN bytes (13 * j + 0)
    let b1 ← rdN bytes (13 * j + 1)
    let b2 ← rdN bytes (13 * j + 2)
    let b3 ← rdN bytes (13 * j + 3)
    let b4 ← rdN bytes (13 * j + 4)
    let b5 ← rdN bytes (13 * j + 5)
    let b6 ← rdN bytes (13 * j + 6)
    let b7 ← rdN bytes (13 * j + 7)
    let b8 ← rdN bytes (13 * j + 8)
    let b9 ← rdN bytes (13 * j + 9)
    let b10 ← rdN bytes (13 * j + 10)
    let b11 ← rdN bytes (13 * j + 11)
    let b12 ← rdN bytes (13 * j + 12)
    wrs data (start + 8 * j) (unpackqBlk b0 b1 b2 b3 b4 b5 b6 b7 b8 b9 b10 b11 b12)

variable [StatePermute]

/-- The body of the `while` loop (SABER_indcpa.c:146-166), up to the test for completeness.  The `uint16_t` values stay below 2^16
(`left + 168` and `start + 8 * 32`), so they are computed in `Nat`. -/
def gmStep (a : List (BitVec 16)) (g : GS) : CM (List (BitVec 16) × GS) := do
  let (buf, s) ← keccak_squeezeblocks g.buf g.left 1 g.s SHAKE128_RATE
  let total := g.left + SHAKE128_RATE
  let num := total / 13
  let num := if num * 8 + g.start > 255 then 32 - g.start / 8 else num
  let a ← byte_bank2pol_part buf a g.start num
  let left := total - num * 13
  let buf ← loop left buf fun j buf => do
    let v ← rd buf (num * 13 + j)
    wr buf j v
  pure (a, ⟨buf, s, g.start + num * 8, left⟩)

/-- The `while` loop (SABER_indcpa.c:143-173).  A step that produces no coefficient leaves at least 168 bytes in the 280-byte
buffer, so the next squeeze would write outside of it; this is the third case. -/
def gmLoop (a : List (BitVec 16)) (g : GS) : CM (List (BitVec 16) × GS) := do
  let (a, g') ← gmStep a g
  if _h : g'.start > 255 then pure (a, { g' with start := 0 })
  else if _h : g.start < g'.start then gmLoop a g'
  else .error .oob
termination_by 256 - g.start

/-- `GenMatrix_poly` (SABER_indcpa.c:116-175) -/
def GenMatrix_poly (temp_ar : List (BitVec 16)) (seed : List Byte) (seedOff poly_number : Nat) (g : GS) : CM (List (BitVec 16) × GS) :=
  if poly_number = 0 then do
    let s ← zeroState g.s
    let s ← keccak_absorb s SHAKE128_RATE seed seedOff SEEDBYTES 0x1F
    gmLoop temp_ar { g with s := s, start := 0, left := 0 }
  else
    gmLoop temp_ar g

/-- The loops that round and shift (SABER_indcpa.c:211-214 and 422-426). -/
def roundRow (r : List (BitVec 16)) : CM (List (BitVec 16)) :=
  loop N r fun j r => do
    let x ← rd r j
    let r ← wr r j (x + 4)
    let x ← rd r j
    wr r j (x >>> 3)

/-- `MatrixVectorMul_keypair` (SABER_indcpa.c:370-390); the new content of `res` is returned. -/
def MatrixVectorMul_keypair (mac : Mac) (seed : List Byte) (skpv res : List (List (BitVec 16))) (gs : GS) :
    CM (List (List (BitVec 16))) := do
  let (res, _, _) ← loop K (res, uninit 16 130 N, gs) fun i st =>
    loop K st fun j (res, temp, g) => do
      let (temp, g) ← GenMatrix_poly temp seed 0 (i + j) g
      let si ← rd skpv i
      let rj ← rd res j
      let rj ← pol_mul mac temp si rj
      let res ← wr res j rj
      pure (res, temp, g)
  pure res

/-- `MatrixVectorMul_encryption` (SABER_indcpa.c:392-431); the new content of `ciphertext` is returned. -/
def MatrixVectorMul_encryption (mac : Mac) (seed : List Byte) (skpv : List (List (BitVec 16))) (ciphertext : List Byte) (gs : GS) :
    CM (List Byte) := do
  let (ciphertext, _) ← loop K (ciphertext, gs) fun i (ciphertext, g) => do
    let res ← loop N (uninit 16 131 N) fun j r => wr r j 0
    let acc ← loop N (uninit 16 132 N) fun j r => wr r j 0
    let (res, _, g) ← loop K (res, acc, g) fun j (res, acc, g) => do
      let (acc, g) ← GenMatrix_poly acc seed 0 (i + j) g
      let sj ← rd skpv j
      let res ← pol_mul mac acc sj res
      pure (res, acc, g)
    let res ← roundRow res
    let ciphertext ← POLp2BS ciphertext 0 res i
    pure (ciphertext, g)
  pure ciphertext

/-- `VectorMul` (SABER_indcpa.c:464-476); `byte_array` points to `byte_array[off]`; the new content of `res` is returned. -/
def VectorMul (mac : Mac) (byte_array : List Byte) (off : Nat) (skpv : List (List (BitVec 16))) (res : List (BitVec 16)) :
    CM (List (BitVec 16)) := do
  let (res, _) ← loop K (res, uninit 16 133 N) fun j (res, pkcl) => do
    let pkcl ← BS2POLp j byte_array off pkcl
    let sj ← rd skpv j
    let res ← pol_mul mac pkcl sj res
    pure (res, pkcl)
  loop N res fun j res => do
    let x ← rd res j
    wr res j (x &&& 1023)

/-- The loops that reduce a vector modulo `p` (SABER_indcpa.c:298-302 and 341-345). -/
def maskVec (v : List (List (BitVec 16))) : CM (List (List (BitVec 16))) :=
  loop K v fun i v =>
    loop N v fun j v => do
      let vi ← rd v i
      let x ← rd vi j
      let vi ← wr vi j (x &&& 1023)
      wr v i vi

/-- `indcpa_kem_keypair` (SABER_indcpa.c:178-235).  Returns `pk`, `sk` and the state of the generator. -/
def indcpa_kem_keypair {σ : Type} (mac : Mac) (rb : RandomBytes σ) (gs : GS) (pk sk : List Byte) (st : σ) :
    CM (List Byte × List Byte × σ) := do
  let (seed, st) ← rb (uninit 8 140 SEEDBYTES) 0 SEEDBYTES st
  let seed ← shake128 seed 0 SEEDBYTES seed 0 SEEDBYTES
  let (noiseseed, st) ← rb (uninit 8 141 32) 0 32 st
  let skpv ← GenSecret (uninitVec 142 K) noiseseed 0
  let res ← loop K (uninitVec 143 K) fun i res => loop N res fun j res => do
    let ri ← rd res i
    let ri ← wr ri j 0
    wr res i ri
  let res ← MatrixVectorMul_keypair mac seed skpv res gs
  let res ← loop K res fun i res => do
    let ri ← rd res i
    let ri ← roundRow ri
    wr res i ri
  let sk ← POLVECq2BS sk 0 skpv
  let pk ← POLVECp2BS pk 0 res
  let pk ← loop SEEDBYTES pk fun i pk => do
    let v ← rd seed i
    wr pk (960 + i) v
  pure (pk, sk, st)

/-- The loops that add the message (SABER_indcpa.c:306-314). -/
def addMsg (m : List Byte) (mOff : Nat) (vprime : List (BitVec 16)) : CM (List (BitVec 16)) :=
  loop 32 vprime fun j v => loop 8 v fun i v => do
    let b ← rdN m (mOff + j)
    let message_bit := n16 ((b >>> i) &&& 1)
    let message_bit := message_bit <<< 9
    addTo v (j * 8 + i) message_bit

/-- `indcpa_kem_enc` (SABER_indcpa.c:238-322); the new content of `ciphertext` is returned. -/
def indcpa_kem_enc (mac : Mac) (gs : GS) (m : List Byte) (mOff : Nat) (noiseseed : List Byte) (seedOff : Nat) (pk : List Byte) (pkOff : Nat)
    (ciphertext : List Byte) : CM (List Byte) := do
  let seed ← loop SEEDBYTES (uninit 8 150 SEEDBYTES) fun i seed => do
    let v ← rd pk (pkOff + (960 + i))
    wr seed i v
  let skpv1 ← GenSecret (uninitVec 151 K) noiseseed seedOff
  let ciphertext ← MatrixVectorMul_encryption mac seed skpv1 ciphertext gs
  let vprime ← loop N (uninit 16 152 N) fun i v => wr v i 0
  let skpv1 ← maskVec skpv1
  let vprime ← VectorMul mac pk pkOff skpv1 vprime
  let vprime ← addMsg m mOff vprime
  let msk_c ← GenCipherText vprime (uninit 8 153 128)
  loop 128 ciphertext fun j c => do
    let v ← rd msk_c j
    wr c (960 + j) v

/-- `indcpa_kem_dec` (SABER_indcpa.c:325-354); the byte array `message_dec` is passed on as `uint16_t *` (line 349). -/
def indcpa_kem_dec (mac : Mac) (sk ciphertext message_dec : List Byte) : CM (List Byte) := do
  let sksv ← BS2POLVECq sk 0 (uninitVec 160 K)
  let v ← loop N (uninit 16 161 N) fun i v => wr v i 0
  let sksv ← maskVec sksv
  let v ← VectorMul mac ciphertext 0 sksv v
  ExtractKeyBits v ciphertext 960 message_dec

/-- `verify` (verify.c:14-25): a `uint32_t` accumulator. -/
def verify (a : List Byte) (aOff : Nat) (b : List Byte) (bOff len : Nat) : CM Int := do
  let r ← loop len (0 : BitVec 32) fun i r => do
    let x ← rd a (aOff + i)
    let y ← rd b (bOff + i)
    pure (r ||| (x ^^^ y).setWidth 32)
  let r := (-r) >>> 31
  pure (r.toNat : Int)

/-- `cmov` (verify.c:28-35) -/
def cmov (r : List Byte) (rOff : Nat) (x : List Byte) (xOff len : Nat) (b : Byte) : CM (List Byte) :=
  let b := BitVec.ofInt 8 (-(prom b))
  loop len r fun i r => do
    let xi ← rd x (xOff + i)
    let ri ← rd r (rOff + i)
    wr r (rOff + i) (ri ^^^ (b &&& (xi ^^^ ri)))

/-- `crypto_kem_keypair` (kem.c:12-25) -/
def crypto_kem_keypair {σ : Type} (mac : Mac) (rb : RandomBytes σ) (gs : GS) (pk sk : List Byte) (st : σ) :
    CM (Int × List Byte × List Byte × σ) := do
  let (pk, sk, st) ← indcpa_kem_keypair mac rb gs pk sk st
  let sk ← loop 992 sk fun i sk => do
    let v ← rd pk i
    wr sk (i + 1248) v
  let sk ← sha3_256 sk (2304 - 64) pk 0 992
  let (sk, st) ← rb sk (2304 - 32) 32 st
  pure (0, pk, sk, st)

/-- `crypto_kem_enc` (kem.c:27-48) -/
def crypto_kem_enc {σ : Type} (mac : Mac) (rb : RandomBytes σ) (gs : GS) (c k pk : List Byte) (st : σ) :
    CM (Int × List Byte × List Byte × σ) := do
  let (buf, st) ← rb (uninit 8 171 64) 0 32 st
  let buf ← sha3_256 buf 0 buf 0 32
  let buf ← sha3_256 buf 32 pk 0 992
  let kr ← sha3_512 (uninit 8 170 64) 0 buf 0 64
  let c ← indcpa_kem_enc mac gs buf 0 kr 32 pk 0 c
  let kr ← sha3_256 kr 32 c 0 1088
  let k ← sha3_256 k 0 kr 0 64
  pure (0, c, k, st)

/-- `crypto_kem_dec` (kem.c:51-80) -/
def crypto_kem_dec (mac : Mac) (gs : GS) (k c sk : List Byte) : CM (Int × List Byte) := do
  let buf ← indcpa_kem_dec mac sk c (uninit 8 181 64)
  let buf ← loop 32 buf fun i buf => do
    let v ← rd sk (2304 - 64 + i)
    wr buf (32 + i) v
  let kr ← sha3_512 (uninit 8 182 64) 0 buf 0 64
  let cmp ← indcpa_kem_enc mac gs buf 0 kr 32 sk 1248 (uninit 8 180 1088)
  let fail ← verify c 0 cmp 0 1088
  let kr ← sha3_256 kr 32 c 0 1088
  let kr ← cmov kr 0 sk (2304 - 32) 32 (BitVec.ofInt 8 fail)
  let k ← sha3_256 k 0 kr 0 64
  pure (0, k)

end Saber.M0
