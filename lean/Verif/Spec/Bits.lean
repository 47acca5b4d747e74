import Verif.CSem
/-!
# Specification: bit streams

A byte string is read as a bit string, least significant bit of each byte first (Saber specification,
data types "byte string" / "bit string").  A polynomial with `k`-bit coefficients is serialised by concatenating the `k`
low bits of its coefficients, least significant bit first.
-/
namespace Saber.Spec

/-- A polynomial of degree `< 256` with integer coefficients. -/
abbrev Poly := Fin 256 → Int

/-- `n`-th bit of a byte string, least significant bit of each byte first. -/
def bitAt (bs : List Byte) (n : Nat) : Bool := (bs.getD (n / 8) 0).getLsbD (n % 8)

/-- The natural number with bits `f 0, ..., f (w-1)`, least significant first. -/
def natOfBits (w : Nat) (f : Nat → Bool) : Nat := ((List.range w).map fun j => (f j).toNat * 2 ^ j).sum

/-- Bit `j` of the two's complement representation of an integer. -/
def intBit (x : Int) (j : Nat) : Bool := decide (x / 2 ^ j % 2 = 1)

/-- Bit `n` of the serialisation of `p` with `k` bits per coefficient. -/
def streamBit (k : Nat) (p : Poly) (n : Nat) : Bool := intBit (p (Fin.ofNat 256 (n / k))) (n % k)

/-- Serialisation of a polynomial with `k` bits per coefficient: `256 * k / 8` bytes. -/
def pack (k : Nat) (p : Poly) : List Byte :=
  (List.range (32 * k)).map fun m => BitVec.ofNat 8 (natOfBits 8 fun j => streamBit k p (8 * m + j))

/-- Polynomial read from the first `256 * k / 8` bytes of a byte string, `k` bits per coefficient. -/
def unpack (k : Nat) (bs : List Byte) : Poly := fun i => (natOfBits k fun j => bitAt bs (k * i.val + j) : Nat)

/-- Serialisation of a vector of polynomials. -/
def packVec (k : Nat) {L : Nat} (v : Fin L → Poly) : List Byte := (List.finRange L).flatMap fun i => pack k (v i)

/-- Vector of polynomials read from a byte string. -/
def unpackVec (k L : Nat) (bs : List Byte) : Fin L → Poly := fun i => unpack k (bs.drop (32 * k * i.val))

end Saber.Spec
