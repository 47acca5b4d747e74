import Verif.Model.X4.Indcpa
/-!
# `Variants/SaberX4_avx2/kem4x.c` and `kem.c`

The parameter `tSize` is the size of the arrays `t0 .. t3` in `shake128x4`; in the code it is `SHAKE256_RATE` = 136 (fips202x4.c:155-158).
-/
namespace Saber.X4

/-- `crypto_kem_keypair4x` (kem4x.c:6-53).  The loop over `i` at 19-24 is the group of four; the elements of the arrays `seed_arr`, `noiseseed_arr`,
`pseudorandom_key_arr` are families.  Returns the return code, `pk0..3`, `sk0..3` and the generator state. -/
def crypto_kem_keypair4x {σ : Type} (tSize : Nat) (rb : RandomBytes σ) (pk sk : Fam (List Byte)) (st : σ) :
    CM (Int × Fam (List Byte) × Fam (List Byte) × σ) := do
  let (seed_arr, noiseseed_arr, pseudorandom_key_arr, st) ←
    four ((fun l => uninit 8 (800 + l.val) SEEDBYTES : Fam (List Byte)), (fun l => uninit 8 (810 + l.val) 32 : Fam (List Byte)),
        (fun l => uninit 8 (820 + l.val) KEYBYTES : Fam (List Byte)), st)
      fun i (seed_arr, noiseseed_arr, pseudorandom_key_arr, st) => do
        let (x, st) ← rb (seed_arr i) 0 SEEDBYTES st
        let (y, st) ← rb (noiseseed_arr i) 0 32 st
        let (z, st) ← rb (pseudorandom_key_arr i) 0 KEYBYTES st
        .ok (setFam seed_arr i x, setFam noiseseed_arr i y, setFam pseudorandom_key_arr i z, st)
  let (pk, sk) ← indcpa_kem_keypair tSize pk sk seed_arr noiseseed_arr
  let sk ← loop PSet.saber.INDCPA_PUBLICKEYBYTES sk fun i sk => fourA sk fun l sk => do
    let v ← rd (pk l) i
    wr sk (i + PSet.saber.INDCPA_SECRETKEYBYTES) v
  let sk ← sha3_256x4 sk (fun _ => PSet.saber.SECRETKEYBYTES - 64) pk (fun _ => 0) PSet.saber.INDCPA_PUBLICKEYBYTES
  let sk ← loop KEYBYTES sk fun i sk => fourA sk fun l sk => do
    let v ← rd (pseudorandom_key_arr l) i
    wr sk (i + PSet.saber.SECRETKEYBYTES - KEYBYTES) v
  .ok (0, pk, sk, st)

/-- `crypto_kem_enc4x` (kem4x.c:55-95).  Returns the return code, `c0..3`, `k0..3` and the generator state. -/
def crypto_kem_enc4x {σ : Type} (tSize : Nat) (rb : RandomBytes σ) (c k pk : Fam (List Byte)) (st : σ) :
    CM (Int × Fam (List Byte) × Fam (List Byte) × σ) := do
  let kr : Fam (List Byte) := fun l => uninit 8 (830 + l) 64
  let (buf, st) ← four ((fun l => uninit 8 (840 + l.val) 64 : Fam (List Byte)), st) fun l (buf, st) => do
    let (x, st) ← rb (buf l) 0 32 st
    .ok (setFam buf l x, st)
  let buf ← sha3_256x4 buf (fun _ => 0) buf (fun _ => 0) 32
  let buf ← sha3_256x4 buf (fun _ => 32) pk (fun _ => 0) PSet.saber.INDCPA_PUBLICKEYBYTES
  let kr ← sha3_512x4 kr (fun _ => 0) buf (fun _ => 0) 64
  let c ← indcpa_kem_enc tSize buf kr 32 pk 0 c
  let kr ← sha3_256x4 kr (fun _ => 32) c (fun _ => 0) PSet.saber.BYTES_CCA_DEC
  let k ← sha3_256x4 k (fun _ => 0) kr (fun _ => 0) 64
  .ok (0, c, k, st)

/-- `crypto_kem_dec4x` (kem4x.c:98-161).  Returns the return code and `k0..3`. -/
def crypto_kem_dec4x (tSize : Nat) (k c sk : Fam (List Byte)) : CM (Int × Fam (List Byte)) := do
  let cmp : Fam (List Byte) := fun l => uninit 8 (850 + l) PSet.saber.BYTES_CCA_DEC
  let buf : Fam (List Byte) := fun l => uninit 8 (860 + l) 64
  let kr : Fam (List Byte) := fun l => uninit 8 (870 + l) 64
  let buf ← indcpa_kem_dec sk c buf
  let buf ← loop 32 buf fun i buf => fourA buf fun l buf => do
    let v ← rd (sk l) (PSet.saber.SECRETKEYBYTES - 64 + i)
    wr buf (32 + i) v
  let kr ← sha3_512x4 kr (fun _ => 0) buf (fun _ => 0) 64
  let cmp ← indcpa_kem_enc tSize buf kr 32 sk PSet.saber.INDCPA_SECRETKEYBYTES cmp
  let fail ← famM fun l => verify (c l) 0 (cmp l) 0 PSet.saber.BYTES_CCA_DEC
  let kr ← sha3_256x4 kr (fun _ => 32) c (fun _ => 0) PSet.saber.BYTES_CCA_DEC
  let kr ← fourA kr fun l kr => cmov kr 0 (sk l) (PSet.saber.SECRETKEYBYTES - KEYBYTES) KEYBYTES (BitVec.ofInt 8 (fail l))
  let k ← sha3_256x4 k (fun _ => 0) kr (fun _ => 0) 64
  .ok (0, k)

/-- The four pointers `x + l * n` into one object (kem.c:20-27, 37-51, 61-75).  Each is given an object of its own: the bytes from there up to the
next pointer.  An access through one pointer to the bytes of another one is an error in the model, not in C. -/
def slices (n : Nat) (x : List Byte) : Fam (List Byte) := fun l => (x.drop (l.val * n)).take n

/-- The object after writes through the four pointers. -/
def joined (n : Nat) (f : Fam (List Byte)) (x : List Byte) : List Byte := f 0 ++ f 1 ++ f 2 ++ f 3 ++ x.drop (4 * n)

/-- `CRYPTO_PUBLICKEYBYTES/4` (apiorig.h:25; the macro is `(3*320+32)*4`) -/
def PKB : Nat := (3 * 320 + 32) * 4 / 4
/-- `CRYPTO_SECRETKEYBYTES/4` (apiorig.h:24; the macro is `2304*4`) -/
def SKB : Nat := 2304 * 4 / 4
/-- `CRYPTO_CIPHERTEXTBYTES/4` (apiorig.h:26; the macro is `1088*4`) -/
def CTB : Nat := 1088 * 4 / 4
/-- `CRYPTO_BYTES/4` (apiorig.h:27; the macro is `32*4`) -/
def SSB : Nat := 32 * 4 / 4

/-- `crypto_kem_keypair` (kem.c:18-32) for a given size of the arrays in `shake128x4` -/
def crypto_kem_keypairWith {σ : Type} (tSize : Nat) (rb : RandomBytes σ) (pk sk : List Byte) (st : σ) : CM (Int × List Byte × List Byte × σ) := do
  let (_, p, s, st) ← crypto_kem_keypair4x tSize rb (slices PKB pk) (slices SKB sk) st
  .ok (0, joined PKB p pk, joined SKB s sk, st)

/-- `crypto_kem_enc` (kem.c:35-56) for a given size of the arrays in `shake128x4` -/
def crypto_kem_encWith {σ : Type} (tSize : Nat) (rb : RandomBytes σ) (c k pk : List Byte) (st : σ) : CM (Int × List Byte × List Byte × σ) := do
  let (_, c', k', st) ← crypto_kem_enc4x tSize rb (slices CTB c) (slices SSB k) (slices PKB pk) st
  .ok (0, joined CTB c' c, joined SSB k' k, st)

/-- `crypto_kem_dec` (kem.c:59-80) for a given size of the arrays in `shake128x4` -/
def crypto_kem_decWith (tSize : Nat) (k c sk : List Byte) : CM (Int × List Byte) := do
  let (_, k') ← crypto_kem_dec4x tSize (slices SSB k) (slices CTB c) (slices SKB sk)
  .ok (0, joined SSB k' k)

/-- `crypto_kem_keypair` (kem.c:18-32), as it is in the code. -/
def crypto_kem_keypair {σ : Type} (rb : RandomBytes σ) := crypto_kem_keypairWith SHAKE256_RATE rb
/-- `crypto_kem_enc` (kem.c:35-56), as it is in the code. -/
def crypto_kem_enc {σ : Type} (rb : RandomBytes σ) := crypto_kem_encWith SHAKE256_RATE rb
/-- `crypto_kem_dec` (kem.c:59-80), as it is in the code. -/
def crypto_kem_dec := crypto_kem_decWith SHAKE256_RATE

end Saber.X4
