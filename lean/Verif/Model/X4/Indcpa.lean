import Verif.Model.X4.Pack
import Verif.Model.Avx.Kem
/-!
# `Variants/SaberX4_avx2/SABER_indcpa.c`

Four variables `x0 .. x3` are a family; statements that differ only in that index are one call of `fourA` or `famM` (checked by
`tools/x4check.py`).  `matrix_vector_mul`, `vector_vector_mul` (SABER_indcpa.c:950-984), `POL2MSG` (937-948), `cbd.c`, `verify.c` and the files in `polymul`
have the text of `AVX_Implementation_KEM`, so its models are used.  `shake128x4` is called with arrays `t0 .. t3` of `tSize` bytes; the
code has 136.  The constants set by `load_values`, and `mask_load`, are those of the AVX2 model.

Not modelled: `BS2POLq` (92-113), `GenMatrix` (347-374) and `GenSecret` (401-417), which are not called; the alignment of the byte strings
given by the caller.
-/
namespace Saber.X4

/-- The matrices `a0 .. a3`: `polyvecNew a[SABER_K]` (poly.h). -/
abbrev VMat := List (List (List Avx.Vec))

/-- `&a[i].vec[j].coeffs[0]` -/
def rd2 {α : Type} (a : List (List α)) (i j : Nat) : CM α := do
  let ai ← rd a i
  rd ai j

/-- An uninitialised `polyvecNew a[SABER_K]` or `__m256i a[SABER_K][SABER_K][SABER_N/16]`. -/
def uninitVMat (tag : Nat) : VMat := (List.range K).map fun i => Avx.uninitVV (100 * tag + i) K 16

/-- `GenMatrix4x` (SABER_indcpa.c:376-398); the seeds start at element 0. -/
def GenMatrix4x (tSize : Nat) (a : Fam VMat) (seed : Fam (List Byte)) : CM (Fam VMat) := do
  let one_vector := 13 * N / 8
  let byte_bank_length := K * K * one_vector
  let buf ← shake128x4With tSize (fun l => uninit 8 (500 + l) byte_bank_length) (fun _ => 0) byte_bank_length seed (fun _ => 0) SEEDBYTES
  loop K a fun i a => loop K a fun j a => do
    let v ← famM fun l => rd2 (a l) i j
    let v ← BS2POLq4x buf (fun _ => (i * K + j) * one_vector) v
    fourA a fun l a => wr2 a i j (v l)

/-- `GenSecret4x` (SABER_indcpa.c:419-440); `seed_l` points to `seed_l[seedOff]`. -/
def GenSecret4x (tSize : Nat) (r : Fam (List (List (BitVec 16)))) (seed : Fam (List Byte)) (seedOff : Nat) :
    CM (Fam (List (List (BitVec 16)))) := do
  let buf_size := PSet.saber.MU * N * K / 8
  let buf ← shake128x4With tSize (fun l => uninit 8 (510 + l) buf_size) (fun _ => 0) buf_size seed (fun _ => seedOff) SEEDBYTES
  loop K r fun i r => fourA r fun l r => do
    let ri ← rd r i
    let ri ← Avx.cbd .saber ri (buf l) (i * PSet.saber.MU * N / 8)
    wr r i ri

/-! ### Vectors -/

/-- The loops at SABER_indcpa.c:500-508 and 661-668. -/
def loadVec4x (dst : Fam (List (List Avx.Vec))) (src : Fam (List (List (BitVec 16)))) : CM (Fam (List (List Avx.Vec))) :=
  loop K dst fun i dst => loop (N / 16) dst fun j dst => fourA dst fun l dst => do
    let row ← rd (src l) i
    let v ← Avx.loadu row (j * 16)
    wr2 dst i j v

/-- The loops at SABER_indcpa.c:511-520 and 672-682. -/
def copyMat4x (dst src : Fam VMat) : CM (Fam VMat) :=
  loop K dst fun i dst => loop K dst fun j dst => loop (N / 16) dst fun k dst => fourA dst fun l dst => do
    let v ← rd2 (src l) i j
    let x ← rd v k
    let di ← rd dst i
    let di ← wr2 di j k x
    wr dst i di

/-- The loops at SABER_indcpa.c:522-529 and 685-692: `x = x ^ x` on uninitialised elements. -/
def clearVV4x (res : Fam (List (List Avx.Vec))) : CM (Fam (List (List Avx.Vec))) :=
  loop K res fun i res => loop (N / 16) res fun j res => fourA res fun _ res => do
    let x ← rd2 res i j
    wr2 res i j fun l => x l ^^^ x l

/-- The loops at SABER_indcpa.c:751-756 and 878-884. -/
def clear4x (v : Fam (List Avx.Vec)) : CM (Fam (List Avx.Vec)) :=
  loop (N / 16) v fun k v => fourA v fun _ v => do
    let x ← rd v k
    wr v k fun l => x l ^^^ x l

/-- The loops at SABER_indcpa.c:531-536, 696-702 and 888-893. -/
def evalAll4x (sk_avx b_bucket : Fam (List (List Avx.Vec))) : CM (Fam (List (List Avx.Vec))) :=
  loop K b_bucket fun j b_bucket => fourA b_bucket fun l b_bucket => do
    let s ← rd (sk_avx l) j
    let b ← rd b_bucket j
    let b ← Avx.TC_eval s b
    wr b_bucket j b

/-- The loops at SABER_indcpa.c:545-559 and 712-726; the two assignments to one element are one step. -/
def truncVec4x (res : Fam (List (List Avx.Vec))) : CM (Fam (List (List Avx.Vec))) :=
  loop K res fun i res => loop (N / 16) res fun j res => fourA res fun _ res => do
    let x ← rd2 res i j
    wr2 res i j fun l => (x l + Avx.H1_avx l) >>> (EQ - EP)

/-- The loops at SABER_indcpa.c:565-572 and 732-739. -/
def storeVec4x (dst : Fam (List (List (BitVec 16)))) (v : Fam (List (List Avx.Vec))) : CM (Fam (List (List (BitVec 16)))) :=
  loop K dst fun i dst => loop (N / 16) dst fun j dst => fourA dst fun l dst => do
    let x ← rd2 (v l) i j
    let row ← rd dst i
    let row ← Avx.maskstore row (j * 16) Avx.mask_load x
    wr dst i row

/-- The loop at SABER_indcpa.c:900-905. -/
def storeRow4x (row : Fam (List (BitVec 16))) (v : Fam (List Avx.Vec)) : CM (Fam (List (BitVec 16))) :=
  loop (N / 16) row fun j row => fourA row fun l row => do
    let x ← rd (v l) j
    Avx.maskstore row (j * 16) Avx.mask_load x

/-- The loop at SABER_indcpa.c:822-828: `storeRow4x` with the row number 0 of `temp0 .. temp3`. -/
def storeTemp4x (temp : Fam (List (List (BitVec 16)))) (v : Fam (List Avx.Vec)) : CM (Fam (List (List (BitVec 16)))) :=
  loop (N / 16) temp fun j temp => fourA temp fun l temp => do
    let x ← rd (v l) j
    let row ← rd temp 0
    let row ← Avx.maskstore row (j * 16) Avx.mask_load x
    wr temp 0 row

/-! ### Encryption scheme -/

/-- `indcpa_kem_keypair` (SABER_indcpa.c:448-583).  The byte string arguments start at element 0.  Returns `pk0..pk3`, `sk0..sk3`; the new content of `seed_arr` is not
used by the caller.  In the call of `shake128x4` the outputs are the inputs; all reads of the inputs happen before the first write. -/
def indcpa_kem_keypair (tSize : Nat) (pk sk : Fam (List Byte)) (seed noiseseed : Fam (List Byte)) : CM (Fam (List Byte) × Fam (List Byte)) := do
  let seed ← shake128x4With tSize seed (fun _ => 0) SEEDBYTES seed (fun _ => 0) SEEDBYTES
  let a ← GenMatrix4x tSize (fun l => uninitVMat (520 + l)) seed
  let skpv1 ← GenSecret4x tSize (fun l => uninitVec (530 + l) K) noiseseed 0
  let sk_avx ← loadVec4x (fun l => Avx.uninitVV (540 + l) K 16) skpv1
  let a_avx ← copyMat4x (fun l => uninitVMat (550 + l)) a
  let res_avx ← clearVV4x fun l => Avx.uninitVV (560 + l) K 16
  let b_bucket ← evalAll4x sk_avx fun l => Avx.uninitVV (570 + l) K 64
  let res_avx ← fourA res_avx fun l res => Avx.matrix_vector_mul .saber (a_avx l) (b_bucket l) res 1
  let res_avx ← truncVec4x res_avx
  let sk ← POLVEC2BSX4 sk (fun _ => 0) skpv1 8192
  let skpv1 ← storeVec4x skpv1 res_avx
  let pk ← POLVEC2BSX4 pk (fun _ => 0) skpv1 1024
  let pk ← loop SEEDBYTES pk fun i pk => fourA pk fun l pk => do
    let v ← rd (seed l) i
    wr pk (PSet.saber.POLYVECCOMPRESSEDBYTES + i) v
  .ok (pk, sk)

/-- The loops at SABER_indcpa.c:774-783; `message_received_l` starts at element 0. -/
def unpackMsg4x (message : Fam (List (BitVec 16))) (message_received : Fam (List Byte)) : CM (Fam (List (BitVec 16))) :=
  loop KEYBYTES message fun j message => loop 8 message fun i message => fourA message fun l message => do
    let b ← rdN (message_received l) j
    wr message (8 * j + i) (n16 ((b >>> i) &&& 0x01))

/-- The loop at SABER_indcpa.c:785-798; the two assignments to one element are one step. -/
def encodeMessage4x (message_avx : Fam (List Avx.Vec)) (message : Fam (List (BitVec 16))) : CM (Fam (List Avx.Vec)) :=
  loop (N / 16) message_avx fun i message_avx => fourA message_avx fun l message_avx => do
    let x ← Avx.loadu (message l) (i * 16)
    wr message_avx i fun k => x k <<< (EP - 1)

/-- The loop at SABER_indcpa.c:765-770. -/
def addH1_4x (v : Fam (List Avx.Vec)) : CM (Fam (List Avx.Vec)) :=
  loop (N / 16) v fun i v => fourA v fun _ v => do
    let x ← rd v i
    wr v i fun k => x k + Avx.H1_avx k

/-- The loop at SABER_indcpa.c:801-818; the three assignments to one element are one step. -/
def truncEnc4x (v m : Fam (List Avx.Vec)) : CM (Fam (List Avx.Vec)) :=
  loop (N / 16) v fun k v => fourA v fun l v => do
    let x ← rd v k
    let mk ← rd (m l) k
    wr v k fun i => ((x i - mk i) &&& Avx.mod_p i) >>> (EP - PSet.saber.ET)

/-- `indcpa_kem_enc` (SABER_indcpa.c:587-836); `noiseseed_l` and `pk_l` point to the given elements, the messages and ciphertexts start at element 0.  Returns
`ciphertext0..3`. -/
def indcpa_kem_enc (tSize : Nat) (message_received noiseseed : Fam (List Byte)) (noiseOff : Nat) (pk : Fam (List Byte)) (pkOff : Nat)
    (ciphertext : Fam (List Byte)) : CM (Fam (List Byte)) := do
  let seed ← loop SEEDBYTES (fun l : Fin 4 => uninit 8 (600 + l.val) SEEDBYTES) fun i seed => fourA seed fun l seed => do
    let v ← rd (pk l) (pkOff + PSet.saber.POLYVECCOMPRESSEDBYTES + i)
    wr seed i v
  let a ← GenMatrix4x tSize (fun l => uninitVMat (610 + l)) seed
  let skpv1 ← GenSecret4x tSize (fun l => uninitVec (620 + l) K) noiseseed noiseOff
  let sk_avx ← loadVec4x (fun l => Avx.uninitVV (630 + l) K 16) skpv1
  let a_avx ← copyMat4x (fun l => uninitVMat (640 + l)) a
  let res_avx ← clearVV4x fun l => Avx.uninitVV (650 + l) K 16
  let b_bucket ← evalAll4x sk_avx fun l => Avx.uninitVV (660 + l) K 64
  let res_avx ← fourA res_avx fun l res => Avx.matrix_vector_mul .saber (a_avx l) (b_bucket l) res 0
  let res_avx ← truncVec4x res_avx
  let temp ← storeVec4x (fun l => uninitVec (670 + l) K) res_avx
  let ciphertext ← POLVEC2BSX4 ciphertext (fun _ => 0) temp 1024
  let pkcl_avx ← BS2POLVECX4 pk (fun _ => pkOff) (fun l => Avx.uninitVV (680 + l) K 16) 1024
  let vprime ← clear4x fun l => Avx.uninitVecs (690 + l) 16
  let vprime ← fourA vprime fun l v => Avx.vector_vector_mul .saber (pkcl_avx l) (b_bucket l) v
  let vprime ← addH1_4x vprime
  let message ← unpackMsg4x (fun l => uninit 16 (700 + l) 256) message_received
  let message_avx ← encodeMessage4x (fun l => Avx.uninitVecs (710 + l) 16) message
  let vprime ← truncEnc4x vprime message_avx
  let temp ← storeTemp4x temp vprime
  fourA ciphertext fun l c => do
    let t0 ← rd (temp l) 0
    SABER_pack_4bit c PSet.saber.POLYVECCOMPRESSEDBYTES t0

/-- The loop at SABER_indcpa.c:919-924. -/
def decRound4x (m op : Fam (List (BitVec 16))) : CM (Fam (List (BitVec 16))) :=
  loop N m fun i m => fourA m fun l m => do
    let x ← rd m i
    let o ← rd (op l) i
    wr m i (u16 (isar (Avx.iand (← isub (← iadd (prom x) (Avx.h2 .saber)) (← ishl (prom o) (EP - PSet.saber.ET))) 1023) (EP - 1)))

/-- `indcpa_kem_dec` (SABER_indcpa.c:839-934); all pointers point to element 0.  Returns the new contents of `message0_dec .. message3_dec`. -/
def indcpa_kem_dec (sk ciphertext message_dec : Fam (List Byte)) : CM (Fam (List Byte)) := do
  let sksv_avx ← BS2POLVECX4 sk (fun _ => 0) (fun l => Avx.uninitVV (720 + l) K 16) 8192
  let pksv_avx ← BS2POLVECX4 ciphertext (fun _ => 0) (fun l => Avx.uninitVV (730 + l) K 16) 1024
  let v ← clear4x fun l => Avx.uninitVecs (740 + l) 16
  let b_bucket ← evalAll4x sksv_avx fun l => Avx.uninitVV (750 + l) K 64
  let v ← fourA v fun l v => Avx.vector_vector_mul .saber (pksv_avx l) (b_bucket l) v
  let m ← storeRow4x (fun l => uninit 16 (760 + l) 256) v
  let op ← SABER_un_pack4bitX4 ciphertext (fun _ => PSet.saber.POLYVECCOMPRESSEDBYTES) fun l => uninit 16 (770 + l) N
  let m ← decRound4x m op
  fourA message_dec fun l d => Avx.POL2MSG (m l) d

end Saber.X4
