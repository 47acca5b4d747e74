import Verif.Model.Pack
import Verif.Model.PolyMul
import Verif.Model.Cbd
import Verif.Model.Fips202
/-!
# `Reference_Implementation_KEM/poly.c`

`uint16_t v[SABER_L][SABER_N]` is a list of `SABER_L` lists; a matrix is a list of vectors.
-/
namespace Saber

/-- An uninitialised local `uint16_t v[SABER_L][SABER_N]`. -/
def uninitVec (tag L : Nat) : List (List (BitVec 16)) := (List.range L).map fun i => uninit 16 (100 * tag + i) N
/-- An uninitialised local `uint16_t A[SABER_L][SABER_L][SABER_N]`. -/
def uninitMat (tag L : Nat) : List (List (List (BitVec 16))) := (List.range L).map fun i => uninitVec (100 * tag + i) L
/-- A local `uint16_t v[SABER_L][SABER_N] = {0}`. -/
def zeroVec (L : Nat) : List (List (BitVec 16)) := List.replicate L (List.replicate N 0)

/-- `MatrixVectorMul` (poly.c:9-26); the new content of `res` is returned. -/
def MatrixVectorMul (P : PSet) (A : List (List (List (BitVec 16)))) (s res : List (List (BitVec 16))) (transpose : Int) :
    CM (List (List (BitVec 16))) :=
  loop P.L res fun i res =>
    loop P.L res fun j res => do
      if transpose = 1 then
        let Aj ← rd A j
        let a ← rd Aj i
        let sj ← rd s j
        let ri ← rd res i
        let ri ← poly_mul_acc a sj ri
        wr res i ri
      else
        let Ai ← rd A i
        let a ← rd Ai j
        let sj ← rd s j
        let ri ← rd res i
        let ri ← poly_mul_acc a sj ri
        wr res i ri

/-- `InnerProd` (poly.c:28-35); the new content of `res` is returned. -/
def InnerProd (P : PSet) (b s : List (List (BitVec 16))) (res : List (BitVec 16)) : CM (List (BitVec 16)) :=
  loop P.L res fun j res => do
    let bj ← rd b j
    let sj ← rd s j
    poly_mul_acc bj sj res

/-- `GenMatrix` (poly.c:37-48); `seed` points to `seed[seedOff]`. -/
def GenMatrix (P : PSet) (A : List (List (List (BitVec 16)))) (seed : List Byte) (seedOff : Nat) :
    CM (List (List (List (BitVec 16)))) := do
  let buf ← shake128 (uninit 8 30 (P.L * P.POLYVECBYTES)) 0 (P.L * P.POLYVECBYTES) seed seedOff SEEDBYTES
  loop P.L A fun i A => do
    let Ai ← rd A i
    let Ai ← BS2POLVECq P buf (i * P.POLYVECBYTES) Ai
    wr A i Ai

/-- `GenSecret` (poly.c:50-61); `seed` points to `seed[seedOff]`. -/
def GenSecret (P : PSet) (s : List (List (BitVec 16))) (seed : List Byte) (seedOff : Nat) :
    CM (List (List (BitVec 16))) := do
  let buf ← shake128 (uninit 8 31 (P.L * P.POLYCOINBYTES)) 0 (P.L * P.POLYCOINBYTES) seed seedOff NOISE_SEEDBYTES
  loop P.L s fun i s => do
    let si ← rd s i
    let si ← cbd P si buf (i * P.POLYCOINBYTES)
    wr s i si

end Saber
