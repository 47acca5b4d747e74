import Verif.Model.Leak.AvxMachine
/-!
# The AVX2 implementation with events

Generated by `tools/leakgen.py` from Model/Avx/Matrix.lean, Model/Avx/Scm.lean, Model/Avx/Toom.lean, Model/Avx/Pack.lean, Model/Avx/Indcpa.lean, Model/Avx/Kem.lean, Model/Avx/AesNi.lean: the same code over the operations of `Model/Leak/Monad.lean`.  The erasure theorems in
`Proof/Leak` say that leaving out the events gives the model.  A condition that is fixed by the build configuration has no event.
-/
namespace Saber.Leak.Avx
open Saber.Avx


/-! ## Avx/Matrix -/

namespace Matrix
open Saber.Avx.Matrix

end Matrix
/-- `transpose_n1` (matrix.c:14-125); the new content of `M` is returned. -/
def transpose_n1 (M : List Vec) : LM (List Vec) := do
  let r ← run 16 [M] Matrix.body
  rd r 0

/-! ## Avx/Scm -/

namespace Scm
open Saber.Avx.Scm

end Scm
/-- `schoolbook_avx_new3_acc` (scm_avx.c:11-409); the new content of `c_avx` is returned. -/
def schoolbook_avx_new3_acc (a b c_avx : List Vec) : LM (List Vec) := do
  let r ← run 17 [a, b, c_avx] Scm.acc
  rd r 2

/-- `schoolbook_avx_new2` (scm_avx.c:413-752); the new content of `c_avx` is returned. -/
def schoolbook_avx_new2 (a b c_avx : List Vec) : LM (List Vec) := do
  let r ← run 17 [a, b, c_avx] Scm.new2
  rd r 2

/-! ## Avx/Toom -/

namespace Eval
open Saber.Avx.Eval

end Eval
namespace KEval
open Saber.Avx.KEval

end KEval
/-- The calls `transpose_n1(m); transpose_n1(m+16); ...`, `n` times (toom-cook_4way.c:170-173, 338-341 and 929-939). -/
def transposes (n : Nat) (m : List Vec) : LM (List Vec) :=
  loop n m fun i m => onSlice m (16 * i) transpose_n1

/-- `batch_64coefficient_multiplications_new` (toom-cook_4way.c:16-220); the new content of `c_bucket` is returned. -/
def batch_64coefficient_multiplications_new (a b_bucket c_bucket : List Vec) (f : Nat) : LM (List Vec) := do
  let r ← run 4 [a, uninitVecs 91 64] Eval.batch
  let a_bucket ← rd r 1
  let a_bucket ← transposes 4 a_bucket
  branch (decide (f = 0))
  if f = 0 then
    let c_bucket ← onSlice c_bucket 0 fun c => schoolbook_avx_new2 a_bucket b_bucket c
    let c_bucket ← onSlice c_bucket 32 fun c => schoolbook_avx_new2 (a_bucket.drop 16) (b_bucket.drop 16) c
    let c_bucket ← onSlice c_bucket 64 fun c => schoolbook_avx_new2 (a_bucket.drop 32) (b_bucket.drop 32) c
    onSlice c_bucket 96 fun c => schoolbook_avx_new2 (a_bucket.drop 48) (b_bucket.drop 48) c
  else
    let c_bucket ← onSlice c_bucket 0 fun c => schoolbook_avx_new3_acc a_bucket b_bucket c
    let c_bucket ← onSlice c_bucket 32 fun c => schoolbook_avx_new3_acc (a_bucket.drop 16) (b_bucket.drop 16) c
    let c_bucket ← onSlice c_bucket 64 fun c => schoolbook_avx_new3_acc (a_bucket.drop 32) (b_bucket.drop 32) c
    onSlice c_bucket 96 fun c => schoolbook_avx_new3_acc (a_bucket.drop 48) (b_bucket.drop 48) c

/-- `KARA_eval` (toom-cook_4way.c:222-342); the new content of `b_bucket` is returned. -/
def KARA_eval (b b_bucket : List Vec) : LM (List Vec) := do
  let r ← run 4 [b, b_bucket] KEval.body
  let b_bucket ← rd r 1
  transposes 4 b_bucket

namespace KInterpol
open Saber.Avx.KInterpol

end KInterpol
/-- `KARA_interpol` (toom-cook_4way.c:344-825); `w` are the arrays `result_final0`, ..., `result_final6`, whose new contents are returned. -/
def KARA_interpol (c_bucket : List Vec) (w : List (List Vec)) : LM (List (List Vec)) := do
  let r ← run 17 (c_bucket :: w) KInterpol.body
  pure r.tail

namespace TEval
open Saber.Avx.TEval

end TEval
/-- `toom_cook_4way_avx_n1` (toom-cook_4way.c:827-875); the new content of `c_bucket` is returned. -/
def toom_cook_4way_avx_n1 (a_avx b_bucket c_bucket : List Vec) (f : Nat) : LM (List Vec) := do
  let r ← run 7 [a_avx, uninitVecs 92 28] TEval.body
  let aw_avx ← rd r 1
  batch_64coefficient_multiplications_new aw_avx b_bucket c_bucket f

namespace TEvalB
open Saber.Avx.TEvalB

end TEvalB
/-- `TC_eval` (toom-cook_4way.c:877-913); the new content of `b_bucket` is returned. -/
def TC_eval (b_avx b_bucket : List Vec) : LM (List Vec) := do
  let r ← run 7 [b_avx, uninitVecs 93 28] TEvalB.body
  let bw_avx ← rd r 1
  KARA_eval bw_avx b_bucket

namespace TInterpol
open Saber.Avx.TInterpol

end TInterpol
/-- `TC_interpol` (toom-cook_4way.c:916-1015); the new contents of `c_bucket` and `res_avx` are returned. -/
def TC_interpol (c_bucket res_avx : List Vec) : LM (List Vec × List Vec) := do
  let c_bucket ← transposes 8 c_bucket
  let w ← KARA_interpol c_bucket ((List.range 7).map fun i => uninitVecs (94 + i) 8)
  let r ← run 8 (w ++ [uninitVecs 101 32, res_avx]) TInterpol.body
  let res_avx ← rd r 8
  pure (c_bucket, res_avx)

/-! ## Avx/Pack -/

/-- `SABER_pack_3bit`, `SABER_pack_4bit`, `SABER_pack_6bit` (pack_unpack.c:3-16, 39-49 and 64-77), selected by `Saber_type` as in
SABER_indcpa.c:431-437. -/
def SABER_pack : PSet → List Byte → List (BitVec 16) → LM (List Byte)
  | .light, bytes, data => POLT2BS_3 bytes 0 data
  | .saber, bytes, data => POLT2BS_4 bytes 0 data
  | .fire, bytes, data => POLT2BS_6 bytes 0 data

/-- `SABER_un_pack3bit`, `SABER_un_pack4bit`, `SABER_un_pack6bit` (pack_unpack.c:18-37, 51-62 and 80-95), selected by `Saber_type` as in
SABER_indcpa.c:523-529. -/
def SABER_un_pack : PSet → List Byte → List (BitVec 16) → LM (List (BitVec 16))
  | .light, bytes, data => BS2POLT_3 bytes 0 data
  | .saber, bytes, data => BS2POLT_4 bytes 0 data
  | .fire, bytes, data => BS2POLT_6 bytes 0 data

/-- `POLVECp2BS` (pack_unpack.c:121-143) -/
def POLVECp2BS (P : PSet) (bytes : List Byte) (data : List (List (BitVec 16))) : LM (List Byte) :=
  loop P.L bytes fun i bytes => do
    let row ← rd data i
    POLp2BS bytes (i * (N * 10) / 8) row

/-- `POLVECq2BS` (pack_unpack.c:145-186) -/
def POLVECq2BS (P : PSet) (bytes : List Byte) (data : List (List (BitVec 16))) : LM (List Byte) :=
  loop P.L bytes fun i bytes => do
    let row ← rd data i
    POLq2BS bytes (i * (N * 13) / 8) row

/-- `BS2POLVECp` (pack_unpack.c:188-206); `bytes` points to `bytes[off]`. -/
def BS2POLVECp (P : PSet) (bytes : List Byte) (off : Nat) (data : List (List (BitVec 16))) : LM (List (List (BitVec 16))) :=
  loop P.L data fun i data => do
    let row ← rd data i
    let row ← BS2POLp bytes (off + i * (N * 10) / 8) row
    wr data i row

/-- `BS2POLVECq` (pack_unpack.c:208-231); `bytes` points to `bytes[off]`. -/
def BS2POLVECq (P : PSet) (bytes : List Byte) (off : Nat) (data : List (List (BitVec 16))) : LM (List (List (BitVec 16))) :=
  loop P.L data fun i data => do
    let row ← rd data i
    let row ← Leak.BS2POLq bytes (off + i * (N * 13) / 8) row
    wr data i row

/-- `POLVEC2BS` (pack_unpack.c:481-487) -/
def POLVEC2BS (P : PSet) (bytes : List Byte) (data : List (List (BitVec 16))) (modulus : Nat) : LM (List Byte) :=
  do
  branch (decide (modulus = 1024))
  if modulus = 1024 then POLVECp2BS P bytes data
  else do
  branch (decide (modulus = 8192))
  if modulus = 8192 then POLVECq2BS P bytes data
  else pure bytes

/-- `BS2POLVEC` (pack_unpack.c:489-496); `bytes` points to `bytes[off]`. -/
def BS2POLVEC (P : PSet) (bytes : List Byte) (off : Nat) (data : List (List (BitVec 16))) (modulus : Nat) : LM (List (List (BitVec 16))) :=
  do
  branch (decide (modulus = 1024))
  if modulus = 1024 then BS2POLVECp P bytes off data
  else do
  branch (decide (modulus = 8192))
  if modulus = 8192 then BS2POLVECq P bytes off data
  else pure data

/-- `cbd` (cbd.c:23-106); `buf` points to `buf[off]`.  The local computation is the one of the reference implementation; the four
results are reduced with `& Qmod_minus1` before they are stored (cbd.c:47-50, 73-76, 98-101). -/
def cbd (P : PSet) (r : List (BitVec 16)) (buf : List Byte) (off : Nat) : LM (List (BitVec 16)) :=
  match P with
  | .fire => loop (N / 4) r fun i r => do
    let t ← load_littleendian buf (off + 3 * i) 3
    wrs r (4 * i) ((cbdBlk6 (t.setWidth 32)).map (· &&& 8191))
  | .saber => loop (N / 4) r fun i r => do
    let t ← load_littleendian buf (off + 4 * i) 4
    wrs r (4 * i) ((cbdBlk8 (t.setWidth 32)).map (· &&& 8191))
  | .light => loop (N / 4) r fun i r => do
    let t ← load_littleendian buf (off + 5 * i) 5
    wrs r (4 * i) ((cbdBlk10 t).map (· &&& 8191))

/-! ## Avx/Indcpa -/

/-- `_mm256_maskstore_epi32` to `&row[off]`: the 32-bit elements whose mask has the top bit set are stored. -/
def maskstore (row : List (BitVec 16)) (off : Nat) (mask : Nat → BitVec 32) (v : Vec) : LM (List (BitVec 16)) :=
  loop 8 row fun i row =>
    do
    branch (mask i).msb
    if (mask i).msb then do
      let row ← wr row (off + 2 * i) (v.lane (2 * i))
      wr row (off + 2 * i + 1) (v.lane (2 * i + 1))
    else pure row

/-- The innermost loop of SABER_indcpa.c:203-209, 212-218, 325-329, 332-338, 377-381 and 488-493: the 16 vectors of one polynomial. -/
def loadRow (dst : List Vec) (row : List (BitVec 16)) : LM (List Vec) :=
  loop (N / 16) dst fun j dst => do
    let v ← loadu row (j * 16)
    wr dst j v

/-- The loops at SABER_indcpa.c:203-209, 325-329, 377-381 and 488-493 (the last one fills two arrays; here they are filled one after the
other). -/
def loadVec (P : PSet) (dst : List (List Vec)) (src : List (List (BitVec 16))) : LM (List (List Vec)) :=
  loop P.L dst fun i dst => do
    let row ← rd src i
    let d ← rd dst i
    let d ← loadRow d row
    wr dst i d

/-- The loops at SABER_indcpa.c:212-218 and 332-338. -/
def loadMat (P : PSet) (dst : List (List (List Vec))) (src : List (List (List (BitVec 16)))) : LM (List (List (List Vec))) :=
  loop P.L dst fun i dst => do
    let row ← rd src i
    let d ← rd dst i
    let d ← loadVec P d row
    wr dst i d

/-- The loop at SABER_indcpa.c:247-249, 363-365, 426-429 and 514-516: the 16 vectors of one polynomial are stored. -/
def storeRow (row : List (BitVec 16)) (v : List Vec) : LM (List (BitVec 16)) :=
  loop (N / 16) row fun j row => do
    let x ← rd v j
    maskstore row (j * 16) mask_load x

/-- The loops at SABER_indcpa.c:246-250 and 362-366. -/
def storeVec (P : PSet) (dst : List (List (BitVec 16))) (v : List (List Vec)) : LM (List (List (BitVec 16))) :=
  loop P.L dst fun i dst => do
    let vi ← rd v i
    let row ← rd dst i
    let row ← storeRow row vi
    wr dst i row

/-- `BS2POLq` (SABER_indcpa.c:81-102); the assignments are those of the reference implementation's function. -/
def BS2POLq (bytes : List Byte) (off : Nat) (data : List (BitVec 16)) : LM (List (BitVec 16)) := Leak.BS2POLq bytes off data

/-- The loop over `k` in `GenMatrix` (SABER_indcpa.c:123-125). -/
def modRow (dst temp_ar : List (BitVec 16)) : LM (List (BitVec 16)) :=
  loop N dst fun k dst => do
    let x ← rd temp_ar k
    wr dst k (x &&& 8191)

/-- `GenMatrix` (SABER_indcpa.c:105-128); `seed` points to `seed[0]`. -/
def GenMatrix (lib : LLib) (P : PSet) (a : List (List (List (BitVec 16)))) (seed : List Byte) : LM (List (List (List (BitVec 16)))) := do
  let one_vector := 13 * N / 8
  let byte_bank_length := P.L * P.L * one_vector
  let buf ← lib.prf (uninit 8 130 byte_bank_length) 0 byte_bank_length seed 0 SEEDBYTES
  let (a, _) ← loop P.L (a, uninit 16 131 N) fun i (a, temp_ar) =>
    loop P.L (a, temp_ar) fun j (a, temp_ar) => do
      let temp_ar ← BS2POLq buf ((i * P.L + j) * one_vector) temp_ar
      let ai ← rd a i
      let aij ← rd ai j
      let aij ← modRow aij temp_ar
      let ai ← wr ai j aij
      let a ← wr a i ai
      pure (a, temp_ar)
  pure a

/-- `GenSecret` (SABER_indcpa.c:130-145); `seed` points to `seed[seedOff]`. -/
def GenSecret (lib : LLib) (P : PSet) (r : List (List (BitVec 16))) (seed : List Byte) (seedOff : Nat) : LM (List (List (BitVec 16))) := do
  let buf_size := P.MU * N * P.L / 8
  let buf ← lib.prf (uninit 8 132 buf_size) 0 buf_size seed seedOff NOISE_SEEDBYTES
  loop P.L r fun i r => do
    let ri ← rd r i
    let ri ← cbd P ri buf (i * P.MU * N / 8)
    wr r i ri

/-- The loops at SABER_indcpa.c:224-226, 342-344 and 504-506. -/
def evalAll (P : PSet) (sk_avx b_bucket : List (List Vec)) : LM (List (List Vec)) :=
  loop P.L b_bucket fun j b_bucket => do
    let s ← rd sk_avx j
    let b ← rd b_bucket j
    let b ← TC_eval s b
    wr b_bucket j b

/-- `matrix_vector_mul` (SABER_indcpa.c:554-576); the new content of `res_avx` is returned. -/
def matrix_vector_mul (P : PSet) (a : List (List (List Vec))) (b_bucket res_avx : List (List Vec)) (isTranspose : Int) :
    LM (List (List Vec)) := do
  let (_, res_avx) ← loop P.L (uninitVecs 133 128, res_avx) fun i (c_bucket, res_avx) => do
    let c_bucket ← loop P.L c_bucket fun j c_bucket => do
      let b ← rd b_bucket j
      branch (decide (isTranspose = 0))
      if isTranspose = 0 then
        let ai ← rd a i
        let aij ← rd ai j
        toom_cook_4way_avx_n1 aij b c_bucket j
      else
        let aj ← rd a j
        let aji ← rd aj i
        toom_cook_4way_avx_n1 aji b c_bucket j
    let ri ← rd res_avx i
    let (c_bucket, ri) ← TC_interpol c_bucket ri
    let res_avx ← wr res_avx i ri
    pure (c_bucket, res_avx)
  pure res_avx

/-- `vector_vector_mul` (SABER_indcpa.c:578-588); the new content of `res_avx` is returned. -/
def vector_vector_mul (P : PSet) (a_avx b_bucket : List (List Vec)) (res_avx : List Vec) : LM (List Vec) := do
  let c_bucket ← loop P.L (uninitVecs 134 128) fun i c_bucket => do
    let a ← rd a_avx i
    let b ← rd b_bucket i
    toom_cook_4way_avx_n1 a b c_bucket i
  let (_, res_avx) ← TC_interpol c_bucket res_avx
  pure res_avx

/-- The loops at SABER_indcpa.c:232-238 and 351-358; the three assignments to `res_avx[i][j]` are one step. -/
def truncVec (P : PSet) (res_avx : List (List Vec)) : LM (List (List Vec)) :=
  loop P.L res_avx fun i res_avx =>
    loop (N / 16) res_avx fun j res_avx => do
      let ri ← rd res_avx i
      let x ← rd ri j
      let ri ← wr ri j fun l => ((x l + H1_avx l) >>> (EQ - EP)) &&& mod l
      wr res_avx i ri

/-- `indcpa_kem_keypair` (SABER_indcpa.c:153-258); `pk`, `sk` are the objects passed by the caller.  Returns `pk`, `sk`, state. -/
def indcpa_kem_keypair {σ : Type} (lib : LLib) (P : PSet) (rb : RandomBytes σ) (pk sk : List Byte) (st : σ) :
    LM (List Byte × List Byte × σ) := do
  let (seed, st) ← random rb (uninit 8 140 SEEDBYTES) 0 SEEDBYTES st
  let seed ← lib.prf seed 0 SEEDBYTES seed 0 SEEDBYTES
  let (noiseseed, st) ← random rb (uninit 8 141 32) 0 32 st
  let a ← GenMatrix lib P (uninitMat 142 P.L) seed
  let skpv1 ← GenSecret lib P (uninitVec 143 P.L) noiseseed 0
  let sk_avx ← loadVec P (uninitVV 144 P.L 16) skpv1
  let a_avx ← loadMat P ((List.range P.L).map fun i => uninitVV (14500 + i) P.L 16) a
  let b_bucket ← evalAll P sk_avx (uninitVV 146 P.L 64)
  let res_avx ← matrix_vector_mul P a_avx b_bucket (uninitVV 147 P.L 16) 1
  let res_avx ← truncVec P res_avx
  let sk ← POLVEC2BS P sk skpv1 8192
  let skpv1 ← storeVec P skpv1 res_avx
  let pk ← POLVEC2BS P pk skpv1 1024
  let pk ← memcpy pk P.POLYVECCOMPRESSEDBYTES seed 0 SEEDBYTES
  pure (pk, sk, st)

/-- The loop at SABER_indcpa.c:398-400. -/
def addH1 (v : List Vec) : LM (List Vec) :=
  loop (N / 16) v fun i v => do
    let x ← rd v i
    wr v i fun l => x l + H1_avx l

/-- The loop at SABER_indcpa.c:411-415; the two assignments to `message_avx[i]` are one step. -/
def encodeMessage (message_avx : List Vec) (message : List (BitVec 16)) : LM (List Vec) :=
  loop (N / 16) message_avx fun i message_avx => do
    let x ← loadu message (i * 16)
    wr message_avx i fun l => x l <<< (EP - 1)

/-- The loop at SABER_indcpa.c:418-423; the three assignments to `vprime_avx[k]` are one step. -/
def truncEnc (P : PSet) (vprime_avx message_avx : List Vec) : LM (List Vec) :=
  loop (N / 16) vprime_avx fun k vprime_avx => do
    let x ← rd vprime_avx k
    let m ← rd message_avx k
    wr vprime_avx k fun l => ((x l - m l) &&& mod_p l) >>> (EP - P.ET)

/-- `indcpa_kem_enc` (SABER_indcpa.c:261-444); the pointers `message_received`, `noiseseed`, `pk` point into the given objects at the given
offsets.  The loop at lines 403-409 has the text of the reference implementation's `BS2POLmsg`. -/
def indcpa_kem_enc (lib : LLib) (P : PSet) (message_received : List Byte) (mOff : Nat) (noiseseed : List Byte) (noiseOff : Nat)
    (pk : List Byte) (pkOff : Nat) (ciphertext : List Byte) : LM (List Byte) := do
  let seed ← memcpy (uninit 8 150 SEEDBYTES) 0 pk (pkOff + P.POLYVECCOMPRESSEDBYTES) SEEDBYTES
  let a ← GenMatrix lib P (uninitMat 151 P.L) seed
  let skpv1 ← GenSecret lib P (uninitVec 152 P.L) noiseseed noiseOff
  let sk_avx ← loadVec P (uninitVV 153 P.L 16) skpv1
  let a_avx ← loadMat P ((List.range P.L).map fun i => uninitVV (15400 + i) P.L 16) a
  let b_bucket ← evalAll P sk_avx (uninitVV 155 P.L 64)
  let res_avx ← matrix_vector_mul P a_avx b_bucket (uninitVV 156 P.L 16) 0
  let res_avx ← truncVec P res_avx
  let temp ← storeVec P (uninitVec 157 P.L) res_avx
  let ciphertext ← POLVEC2BS P ciphertext temp 1024
  let pkcl ← BS2POLVEC P pk pkOff (uninitVec 158 P.L) 1024
  let pkcl_avx ← loadVec P (uninitVV 159 P.L 16) pkcl
  let vprime_avx ← vector_vector_mul P pkcl_avx b_bucket (uninitVecs 160 16)
  let vprime_avx ← addH1 vprime_avx
  let message ← BS2POLmsg message_received mOff (uninit 16 161 256)
  let message_avx ← encodeMessage (uninitVecs 162 16) message
  let vprime_avx ← truncEnc P vprime_avx message_avx
  let temp0 ← rd temp 0
  let temp0 ← storeRow temp0 vprime_avx
  let msk_c ← SABER_pack P (uninit 8 163 P.SCALEBYTES_KEM) temp0
  memcpy ciphertext P.POLYVECCOMPRESSEDBYTES msk_c 0 P.SCALEBYTES_KEM

/-- The loop at SABER_indcpa.c:533-535. -/
def decRound (P : PSet) (message_dec_unpacked op : List (BitVec 16)) : LM (List (BitVec 16)) :=
  loop N message_dec_unpacked fun i m => do
    let x ← rd m i
    let o ← rd op i
    wr m i (u16 (isar (iand (← isub (← iadd (prom x) (Saber.Avx.h2 P)) (← ishl (prom o) (EP - P.ET))) 1023) (EP - 1)))

/-- `POL2MSG` (SABER_indcpa.c:541-552); the new content of `message_dec` is returned.  The shifted value is an `int` below `2^23`. -/
def POL2MSG (message_dec_unpacked : List (BitVec 16)) (message_dec : List Byte) : LM (List Byte) :=
  loop KEYBYTES message_dec fun j message_dec => do
    let message_dec ← wr message_dec j 0
    loop 8 message_dec fun i message_dec => do
      let b ← rdN message_dec j
      let d ← rdN message_dec_unpacked (j * 8 + i)
      wr message_dec j (n8 (b ||| (d <<< i)))

/-- The loop at SABER_indcpa.c:495-497: `v_avx[i] = v_avx[i] ^ v_avx[i]` on uninitialised elements. -/
def clear (v : List Vec) : LM (List Vec) :=
  loop (N / 16) v fun i v => do
    let x ← rd v i
    wr v i fun l => x l ^^^ x l

/-- `indcpa_kem_dec` (SABER_indcpa.c:447-539); `sk` and `ciphertext` point to the start of the given objects; the new content of
`message_dec` is returned. -/
def indcpa_kem_dec (P : PSet) (sk ciphertext message_dec : List Byte) : LM (List Byte) := do
  let sksv ← BS2POLVEC P sk 0 (uninitVec 170 P.L) 8192
  let pksv ← BS2POLVEC P ciphertext 0 (uninitVec 171 P.L) 1024
  let sksv_avx ← loadVec P (uninitVV 172 P.L 16) sksv
  let pksv_avx ← loadVec P (uninitVV 173 P.L 16) pksv
  let v_avx ← clear (uninitVecs 174 16)
  let b_bucket ← evalAll P sksv_avx (uninitVV 175 P.L 64)
  let v_avx ← vector_vector_mul P pksv_avx b_bucket v_avx
  let message_dec_unpacked ← storeRow (uninit 16 176 256) v_avx
  let scale_ar ← memcpy (uninit 8 177 P.SCALEBYTES_KEM) 0 ciphertext P.POLYVECCOMPRESSEDBYTES P.SCALEBYTES_KEM
  let op ← SABER_un_pack P scale_ar (uninit 16 178 N)
  let message_dec_unpacked ← decRound P message_dec_unpacked op
  POL2MSG message_dec_unpacked message_dec

/-! ## Avx/Kem -/

/-- `crypto_kem_keypair` (kem.c:19-41).  Returns the return code, `pk`, `sk` and the generator state. -/
def crypto_kem_keypair {σ : Type} (lib : LLib) (P : PSet) (rb : RandomBytes σ) (pk sk : List Byte) (st : σ) :
    LM (Int × List Byte × List Byte × σ) := do
  let (pk, sk, st) ← indcpa_kem_keypair lib P rb pk sk st
  let sk ← loop P.INDCPA_PUBLICKEYBYTES sk fun i sk => do
    let v ← rd pk i
    wr sk (i + P.INDCPA_SECRETKEYBYTES) v
  let sk ← lib.hash_h sk (P.SECRETKEYBYTES - 64) pk 0 P.INDCPA_PUBLICKEYBYTES
  let (sk, st) ← random rb sk (P.SECRETKEYBYTES - KEYBYTES) KEYBYTES st
  pure (0, pk, sk, st)

/-- `crypto_kem_enc` (kem.c:43-67).  Returns the return code, `c`, `k` and the generator state. -/
def crypto_kem_enc {σ : Type} (lib : LLib) (P : PSet) (rb : RandomBytes σ) (c k pk : List Byte) (st : σ) :
    LM (Int × List Byte × List Byte × σ) := do
  let kr := uninit 8 180 64
  let buf := uninit 8 181 64
  let (buf, st) ← random rb buf 0 32 st
  let buf ← lib.hash_h buf 0 buf 0 32
  let buf ← lib.hash_h buf 32 pk 0 P.INDCPA_PUBLICKEYBYTES
  let kr ← lib.hash_g kr 0 buf 0 64
  let c ← indcpa_kem_enc lib P buf 0 kr 32 pk 0 c
  let kr ← lib.hash_h kr 32 c 0 P.BYTES_CCA_DEC
  let k ← lib.hash_h k 0 kr 0 64
  pure (0, c, k, st)

/-- `crypto_kem_dec` (kem.c:70-99).  Returns the return code and `k`. -/
def crypto_kem_dec (lib : LLib) (P : PSet) (k c sk : List Byte) : LM (Int × List Byte) := do
  let cmp := uninit 8 182 P.BYTES_CCA_DEC
  let buf := uninit 8 183 64
  let kr := uninit 8 184 64
  let buf ← indcpa_kem_dec P sk c buf
  let buf ← loop 32 buf fun i buf => do
    let v ← rd sk (P.SECRETKEYBYTES - 64 + i)
    wr buf (32 + i) v
  let kr ← lib.hash_g kr 0 buf 0 64
  let cmp ← indcpa_kem_enc lib P buf 0 kr 32 sk P.INDCPA_SECRETKEYBYTES cmp
  let fail ← verify c 0 cmp 0 P.BYTES_CCA_DEC
  let kr ← lib.hash_h kr 32 c 0 P.BYTES_CCA_DEC
  let kr ← cmov kr 0 sk (P.SECRETKEYBYTES - KEYBYTES) KEYBYTES (BitVec.ofInt 8 fail)
  let k ← lib.hash_h k 0 kr 0 64
  pure (0, k)

/-! ## Avx/AesNi -/

namespace AesNi
open Saber.Avx.AesNi

/-- The macro `BLOCK1` (crypto_stream_aes256ctr.c:47-55). -/
def BLOCK1 (imm : Byte) (s : Saber.Avx.AesNi.KS) : LM Saber.Avx.AesNi.KS := do
  let temp1 := aeskeygenassist s.temp2 imm
  let rkeys ← wr s.rkeys s.idx s.temp2
  let temp4 := shuffle_ps s.temp4 s.temp0 0x10
  let temp0 := Spec.Aes.xors s.temp0 temp4
  let temp4 := shuffle_ps temp4 temp0 0x8c
  let temp0 := Spec.Aes.xors temp0 temp4
  let temp1 := shuffle_ps temp1 temp1 0xff
  let temp0 := Spec.Aes.xors temp0 temp1
  pure { s with temp0, temp4, idx := s.idx + 1, rkeys }

/-- The macro `BLOCK2` (crypto_stream_aes256ctr.c:57-65). -/
def BLOCK2 (imm : Byte) (s : Saber.Avx.AesNi.KS) : LM Saber.Avx.AesNi.KS := do
  let temp1 := aeskeygenassist s.temp0 imm
  let rkeys ← wr s.rkeys s.idx s.temp0
  let temp4 := shuffle_ps s.temp4 s.temp2 0x10
  let temp2 := Spec.Aes.xors s.temp2 temp4
  let temp4 := shuffle_ps temp4 temp2 0x8c
  let temp2 := Spec.Aes.xors temp2 temp4
  let temp1 := shuffle_ps temp1 temp1 0xaa
  let temp2 := Spec.Aes.xors temp2 temp1
  pure { s with temp2, temp4, idx := s.idx + 1, rkeys }

/-- `aesni_key256_expand` (crypto_stream_aes256ctr.c:26-87); the key starts at offset `off` of the array `key`. -/
def aesni_key256_expand (key : List Byte) (off : Nat) (rkeys : List M128) : LM (List M128) := do
  let key0 ← load key (off + 0)
  let key1 ← load key (off + 16)
  let rkeys ← wr rkeys 0 key0
  let s : Saber.Avx.AesNi.KS := ⟨key0, key1, List.replicate 16 0, 1, rkeys⟩
  let s ← BLOCK1 0x01 s
  let s ← BLOCK2 0x01 s
  let s ← BLOCK1 0x02 s
  let s ← BLOCK2 0x02 s
  let s ← BLOCK1 0x04 s
  let s ← BLOCK2 0x04 s
  let s ← BLOCK1 0x08 s
  let s ← BLOCK2 0x08 s
  let s ← BLOCK1 0x10 s
  let s ← BLOCK2 0x10 s
  let s ← BLOCK1 0x20 s
  let s ← BLOCK2 0x20 s
  let s ← BLOCK1 0x40 s
  wr s.rkeys s.idx s.temp0

/-- The first part of `aesni_encrypt8` (crypto_stream_aes256ctr.c:128-134, 182-193, `FUNC(8, MAKE8)`): the eight counter blocks and the new
counter.  The eight variables `nv0`, ..., `nv7` are a list. -/
def counters8 (n : List Byte) : LM (List M128 × List Byte) := do
  let nv0i ← load n 0
  let nl : Int := (half n 1).toInt
  branch (decide (nl < 0 ∧ nl + (8 - 1) ≥ 0))
  if nl < 0 ∧ nl + (8 - 1) ≥ 0 then
    let wrapnumber := 8 - (nl + 8)
    branch (decide ((0 : Int) ≥ wrapnumber))
    branch (decide ((1 : Int) ≥ wrapnumber))
    branch (decide ((2 : Int) ≥ wrapnumber))
    branch (decide ((3 : Int) ≥ wrapnumber))
    branch (decide ((4 : Int) ≥ wrapnumber))
    branch (decide ((5 : Int) ≥ wrapnumber))
    branch (decide ((6 : Int) ≥ wrapnumber))
    branch (decide ((7 : Int) ≥ wrapnumber))
    let nv := (List.range 8).map fun (a : Nat) =>
      bswapHalves (add_epi64 nv0i (set_epi64x (BitVec.ofNat 64 a) (if (a : Int) ≥ wrapnumber then 1 else 0)))
    let n ← store n 0 (add_epi64 nv0i (set_epi64x 8 1))
    pure (nv, n)
  else
    let nv := (List.range 8).map fun (a : Nat) => bswapHalves (add_epi64 nv0i (set_epi64x (BitVec.ofNat 64 a) 0))
    let n ← store n 0 (add_epi64 nv0i (set_epi64x 8 0))
    pure (nv, n)

/-- `aesni_encrypt8` (crypto_stream_aes256ctr.c:164-166, 180-201, 207, `FUNC(8, MAKE8)`).  The eight variables `temp0`, ..., `temp7` are
a list.  Result: the output buffer and the new counter. -/
def aesni_encrypt8 (out : List Byte) (n : List Byte) (rkeys : List M128) : LM (List Byte × List Byte) := do
  let ⟨nv, n⟩ ← counters8 n
  let k ← rd rkeys 0
  let temp := nv.map fun x => Spec.Aes.xors x k
  let temp ← loop 13 temp fun i temp => do
    let k ← rd rkeys (i + 1)
    pure (temp.map fun t => aesenc t k)
  let k ← rd rkeys 14
  let temp := temp.map fun t => aesenclast t k
  let out ← loop 8 out fun a out => do
    let t ← rd temp a
    store out (a * 16) t
  pure (out, n)

/-- The two loops that reverse the halves of the nonce (crypto_stream_aes256ctr.c:230-233). -/
def loadNonce (n2 n : List Byte) : LM (List Byte) := do
  let n2 ← loop 8 n2 fun i n2 => do
    let x ← rd n (7 - i)
    wr n2 i x
  loop 8 n2 fun i n2 => do
    let x ← rd n (23 - (i + 8))
    wr n2 (i + 8) x

/-- `crypto_stream_aes256ctr` (crypto_stream_aes256ctr.c:211-250), writing at offset `outOff` of `out`.  The loop counter `i` is a number;
in the code it is an `unsigned long long`, so for `outlen > 2^64 - 128` the code would not terminate. -/
def crypto_stream_aes256ctr (out : List Byte) (outOff outlen : Nat) (n : List Byte) (k : List Byte) (kOff : Nat) : LM (List Byte) := do
  let rkeys ← aesni_key256_expand k kOff (uninitM128 100 16)
  let n2 ← loadNonce (uninit 8 120 16) n
  let ⟨out, _⟩ ← loop ((outlen + 127) / 128) (out, n2) fun t ⟨out, n2⟩ => do
    let i := 128 * t
    let ⟨outni, n2⟩ ← aesni_encrypt8 (uninit 8 121 128) n2 rkeys
    branch (decide (i + 128 ≥ outlen))
    let mj := if i + 128 ≥ outlen then outlen - i else 128
    let out ← loop mj out fun j out => do
      let x ← rd outni j
      wr out (outOff + (i + j)) x
    pure (out, n2)
  pure out

/-- `saber_aes256ctr_prf` (symmetric-aes.c:7-11). -/
def saber_aes256ctr_prf (output : List Byte) (outOff outlen : Nat) (input : List Byte) (inOff : Nat) : LM (List Byte) :=
  crypto_stream_aes256ctr output outOff outlen (List.replicate 16 0) input inOff

end AesNi
end Saber.Leak.Avx
