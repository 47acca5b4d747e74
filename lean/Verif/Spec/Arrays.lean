import Verif.Spec.Bits
/-!
# C arrays as polynomials, vectors and matrices

The relation between the arrays of the program and the mathematical objects of the specification.
-/
namespace Saber
open Spec

/-- The polynomial held in a C array `uint16_t[256]`. -/
def toP (data : List (BitVec 16)) : Poly := fun i => ((data.getD i.val 0).toNat : Int)

/-- The content of a C array `uint16_t[256]` that stores a polynomial (coefficients modulo `2^16`). -/
def ofP (p : Poly) : List (BitVec 16) := (List.range 256).map fun i => BitVec.ofInt 16 (p (Fin.ofNat 256 i))

/-- The vector of polynomials held in a C array `uint16_t[L][256]`. -/
def toV (L : Nat) (data : List (List (BitVec 16))) : Fin L → Poly := fun i => toP (data.getD i.val [])

/-- The content of a C array `uint16_t[L][256]` that stores a vector of polynomials. -/
def ofV {L : Nat} (v : Fin L → Poly) : List (List (BitVec 16)) := (List.finRange L).map fun i => ofP (v i)

/-- A C array of type `uint16_t[L][256]`. -/
def IsVec (L : Nat) (data : List (List (BitVec 16))) : Prop :=
  data.length = L ∧ ∀ i, i < L → (data.getD i []).length = 256

/-- A C array of type `uint16_t[L][L][256]`. -/
def IsMat (L : Nat) (A : List (List (List (BitVec 16)))) : Prop :=
  A.length = L ∧ ∀ i, i < L → IsVec L (A.getD i [])

/-- The matrix of polynomials held in a C array. -/
def toM (L : Nat) (A : List (List (List (BitVec 16)))) : Fin L → Fin L → Poly := fun i => toV L (A.getD i.val [])

/-- The C array that holds a matrix. -/
def ofM {L : Nat} (A : Fin L → Fin L → Poly) : List (List (List (BitVec 16))) := (List.finRange L).map fun i => ofV (A i)

end Saber
