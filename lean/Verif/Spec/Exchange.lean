import Verif.Spec.KatFile
import Verif.Spec.Drbg
/-!
# Specification: the test programs

A test program exchanges keys again and again, with random bytes from one CTR_DRBG that is instantiated with the bytes 0, 1, ..., 47.
-/
namespace Saber.Spec.Exchange
open Drbg KatFile

/-- The random bytes of `n` exchanges from a state of the generator: four strings of 32 bytes for each. -/
def drawsFrom (E : List Byte → List Byte → List Byte) : State → Nat → List (List (List Byte))
  | _, 0 => []
  | s, n + 1 => (run E s [32, 32, 32, 32]).1 :: drawsFrom E (run E s [32, 32, 32, 32]).2 n

/-- The random bytes of the first `n` exchanges. -/
def exchanges (E : List Byte → List Byte → List Byte) (n : Nat) : List (List (List Byte)) :=
  drawsFrom E (instantiate E entropy (List.replicate 48 0)) n

/-- The shared secret of the encapsulation with random bytes `d`. -/
def secretA (K : Kem) (d : List (List Byte)) : List Byte := K.ss (d.getD 3 []) (K.pk (d.getD 0 []) (d.getD 1 []))

/-- The shared secret of the decapsulation with random bytes `d`. -/
def secretB (K : Kem) (d : List (List Byte)) : List Byte :=
  K.dec (K.sk (d.getD 0 []) (d.getD 1 []) (d.getD 2 [])) (K.ct (d.getD 3 []) (K.pk (d.getD 0 []) (d.getD 1 [])))

/-- Average time per exchange of `n` exchanges, where exchange `i` begins at `start i` and ends at `stop i` on a clock of 64 bits, with the
total time in a counter of 64 bits. -/
def average (n : Nat) (start stop : Nat → BitVec 64) : Nat :=
  ((List.range n).map fun i => (stop i - start i).toNat).sum % 2 ^ 64 / n

/-- The lines with the numbers of `n` rounds from `i`. -/
def numberLines (trace : Bool) (i n : Nat) : List Byte :=
  (List.range' i n).flatMap fun k => if trace then str "i : " ++ decimal k ++ str "\n" else []

/-- Position of the first difference of two lists. -/
def firstDifference (a b : List Byte) : Nat := ((a.zip b).takeWhile fun p => p.1 = p.2).length

/-- Two numbers on a line. -/
def pairLine (p : Byte × Byte) : List Byte := decimal p.1.toNat ++ str " \t " ++ decimal p.2.toNat ++ str "\n"

end Saber.Spec.Exchange
