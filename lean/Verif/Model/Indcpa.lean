import Verif.Model.Poly
/-!
# `Reference_Implementation_KEM/SABER_indcpa.c`

`randombytes(buf + off, n)` is a parameter: it gets the buffer, the offset, the length and the generator state, and returns the new
buffer and state.  `Model/Rng.lean` models the generator of rng.c.
-/
namespace Saber

/-- Type of `randombytes` with a generator state `σ` (rng.h: `int randombytes(unsigned char *x, unsigned long long xlen)`). -/
abbrev RandomBytes (σ : Type) := List Byte → Nat → Nat → σ → CM (List Byte × σ)

/-- `h1` (SABER_indcpa.c:11) -/
def h1 : Int := 2 ^ (EQ - EP - 1)
/-- `h2` (SABER_indcpa.c:12) -/
def h2 (P : PSet) : Int := 2 ^ (EP - 2) - 2 ^ (EP - P.ET - 1) + 2 ^ (EQ - EP - 1)

/-- The rounding loops (SABER_indcpa.c:32-38 and 60-66). -/
def roundVec (P : PSet) (b : List (List (BitVec 16))) : CM (List (List (BitVec 16))) :=
  loop P.L b fun i b =>
    loop N b fun j b => do
      let bi ← rd b i
      let x ← rd bi j
      let bi ← wr bi j (u16 (isar (← iadd (prom x) h1) (EQ - EP)))
      wr b i bi

/-- `indcpa_kem_keypair` (SABER_indcpa.c:14-43); `pk`, `sk` are the objects passed by the caller. Returns `pk`, `sk`, state. -/
def indcpa_kem_keypair {σ : Type} (P : PSet) (rb : RandomBytes σ) (pk sk : List Byte) (st : σ) :
    CM (List Byte × List Byte × σ) := do
  let (seed_A, st) ← rb (uninit 8 40 SEEDBYTES) 0 SEEDBYTES st
  let seed_A ← shake128 seed_A 0 SEEDBYTES seed_A 0 SEEDBYTES
  let (seed_s, st) ← rb (uninit 8 41 NOISE_SEEDBYTES) 0 NOISE_SEEDBYTES st
  let A ← GenMatrix P (uninitMat 42 P.L) seed_A 0
  let s ← GenSecret P (uninitVec 43 P.L) seed_s 0
  let b ← MatrixVectorMul P A s (zeroVec P.L) 1
  let b ← roundVec P b
  let sk ← POLVECq2BS P sk 0 s
  let pk ← POLVECp2BS P pk 0 b
  let pk ← memcpy pk P.POLYVECCOMPRESSEDBYTES seed_A 0 SEEDBYTES
  pure (pk, sk, st)

/-- The loop at SABER_indcpa.c:74-77. -/
def encRound (P : PSet) (vp mp : List (BitVec 16)) : CM (List (BitVec 16)) :=
  loop N vp fun j vp => do
    let v ← rd vp j
    let m ← rd mp j
    wr vp j (u16 (isar (← iadd (← isub (prom v) (← ishl (prom m) (EP - 1))) h1) (EP - P.ET)))

/-- `indcpa_kem_enc` (SABER_indcpa.c:45-80); the pointers `m`, `seed_sp`, `pk` point into the given objects at the given offsets. -/
def indcpa_kem_enc (P : PSet) (m : List Byte) (mOff : Nat) (seed_sp : List Byte) (seedOff : Nat) (pk : List Byte) (pkOff : Nat)
    (ciphertext : List Byte) : CM (List Byte) := do
  let A ← GenMatrix P (uninitMat 44 P.L) pk (pkOff + P.POLYVECCOMPRESSEDBYTES)
  let sp ← GenSecret P (uninitVec 45 P.L) seed_sp seedOff
  let bp ← MatrixVectorMul P A sp (zeroVec P.L) 0
  let bp ← roundVec P bp
  let ciphertext ← POLVECp2BS P ciphertext 0 bp
  let b ← BS2POLVECp P pk pkOff (uninitVec 46 P.L)
  let vp ← InnerProd P b sp (List.replicate N 0)
  let mp ← BS2POLmsg m mOff (uninit 16 47 N)
  let vp ← encRound P vp mp
  POLT2BS P ciphertext P.POLYVECCOMPRESSEDBYTES vp

/-- The loop at SABER_indcpa.c:96-99. -/
def decRound (P : PSet) (v cm : List (BitVec 16)) : CM (List (BitVec 16)) :=
  loop N v fun i v => do
    let x ← rd v i
    let c ← rd cm i
    wr v i (u16 (isar (← isub (← iadd (prom x) (h2 P)) (← ishl (prom c) (EP - P.ET))) (EP - 1)))

/-- `indcpa_kem_dec` (SABER_indcpa.c:82-102); `sk` and `ciphertext` point to the start of the given objects; the new content of `m`
is returned. -/
def indcpa_kem_dec (P : PSet) (sk ciphertext m : List Byte) : CM (List Byte) := do
  let s ← BS2POLVECq P sk 0 (uninitVec 48 P.L)
  let b ← BS2POLVECp P ciphertext 0 (uninitVec 49 P.L)
  let v ← InnerProd P b s (List.replicate N 0)
  let cm ← BS2POLT P ciphertext P.POLYVECCOMPRESSEDBYTES (uninit 16 50 N)
  let v ← decRound P v cm
  POLmsg2BS m 0 v

end Saber
