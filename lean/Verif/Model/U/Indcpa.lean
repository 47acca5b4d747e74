import Verif.Model.U.Poly
import Verif.Model.Indcpa
/-!
# `Variants/uSaber-90s/ref/SABER_indcpa.c`

`randombytes` is a parameter, as in `Model/Indcpa.lean`.
-/
namespace Saber.U

/-- `h1` (SABER_indcpa.c:16) -/
def h1 (c : Cfg) : Int := 2 ^ (c.EQ - EP - 1)
/-- `h2` (SABER_indcpa.c:17) -/
def h2 (c : Cfg) : Int := 2 ^ (EP - 2) - 2 ^ (EP - c.P.ET - 1) + 2 ^ (c.EQ - EP - 1)

/-- The rounding loops (SABER_indcpa.c:38-44 and 68-74). -/
def roundVec (c : Cfg) (b : List (List (BitVec 16))) : CM (List (List (BitVec 16))) :=
  loop c.P.L b fun i b =>
    loop N b fun j b => do
      let bi ← rd b i
      let x ← rd bi j
      let bi ← wr bi j (u16 (isar (← iadd (prom x) (h1 c)) (c.EQ - EP)))
      wr b i bi

/-- `indcpa_kem_keypair` (SABER_indcpa.c:19-49); `pk`, `sk` are the objects passed by the caller. Returns `pk`, `sk`, state. -/
def indcpa_kem_keypair {σ : Type} (c : Cfg) (rb : RandomBytes σ) (pk sk : List Byte) (st : σ) :
    CM (List Byte × List Byte × σ) := do
  let (seed_A, st) ← rb (uninit 8 40 SEEDBYTES) 0 SEEDBYTES st
  let seed_A ← prf c seed_A 0 SEEDBYTES seed_A 0 SEEDBYTES
  let (seed_s, st) ← rb (uninit 8 41 NOISE_SEEDBYTES) 0 NOISE_SEEDBYTES st
  let A ← GenMatrix c (uninitMat 42 c.P.L) seed_A 0
  let s ← GenSecret c (uninitVec 43 c.P.L) seed_s 0
  let b ← MatrixVectorMul c.P A s (zeroVec c.P.L) 1
  let b ← roundVec c b
  let sk ← POLVECq2BS c sk 0 s
  let pk ← POLVECp2BS c.P pk 0 b
  let pk ← memcpy pk c.POLYVECCOMPRESSEDBYTES seed_A 0 SEEDBYTES
  pure (pk, sk, st)

/-- The loop at SABER_indcpa.c:82-85. -/
def encRound (c : Cfg) (vp mp : List (BitVec 16)) : CM (List (BitVec 16)) :=
  loop N vp fun j vp => do
    let v ← rd vp j
    let m ← rd mp j
    wr vp j (u16 (isar (← iadd (← isub (prom v) (← ishl (prom m) (EP - 1))) (h1 c)) (EP - c.P.ET)))

/-- `indcpa_kem_enc` (SABER_indcpa.c:51-88); the pointers `m`, `seed_sp`, `pk` point into the given objects at the given offsets. -/
def indcpa_kem_enc (c : Cfg) (m : List Byte) (mOff : Nat) (seed_sp : List Byte) (seedOff : Nat) (pk : List Byte) (pkOff : Nat)
    (ciphertext : List Byte) : CM (List Byte) := do
  let A ← GenMatrix c (uninitMat 44 c.P.L) pk (pkOff + c.POLYVECCOMPRESSEDBYTES)
  let sp ← GenSecret c (uninitVec 45 c.P.L) seed_sp seedOff
  let bp ← MatrixVectorMul c.P A sp (zeroVec c.P.L) 0
  let bp ← roundVec c bp
  let ciphertext ← POLVECp2BS c.P ciphertext 0 bp
  let b ← BS2POLVECp c.P pk pkOff (uninitVec 46 c.P.L)
  let vp ← InnerProd c.P b sp (List.replicate N 0)
  let mp ← BS2POLmsg m mOff (uninit 16 47 N)
  let vp ← encRound c vp mp
  POLT2BS c.P ciphertext c.POLYVECCOMPRESSEDBYTES vp

/-- The loop at SABER_indcpa.c:104-107. -/
def decRound (c : Cfg) (v cm : List (BitVec 16)) : CM (List (BitVec 16)) :=
  loop N v fun i v => do
    let x ← rd v i
    let y ← rd cm i
    wr v i (u16 (isar (← isub (← iadd (prom x) (h2 c)) (← ishl (prom y) (EP - c.P.ET))) (EP - 1)))

/-- `indcpa_kem_dec` (SABER_indcpa.c:90-110); `sk` and `ciphertext` point to the start of the given objects; the new content of `m`
is returned. -/
def indcpa_kem_dec (c : Cfg) (sk ciphertext m : List Byte) : CM (List Byte) := do
  let s ← BS2POLVECq c sk 0 (uninitVec 48 c.P.L)
  let b ← BS2POLVECp c.P ciphertext 0 (uninitVec 49 c.P.L)
  let v ← InnerProd c.P b s (List.replicate N 0)
  let cm ← BS2POLT c.P ciphertext c.POLYVECCOMPRESSEDBYTES (uninit 16 50 N)
  let v ← decRound c v cm
  POLmsg2BS m 0 v

end Saber.U
