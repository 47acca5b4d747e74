import Verif.Spec.Bits
/-!
# Specification: centred binomial sampling

The noise polynomial of the Saber specification: the input bit string is cut into pieces of `mu` bits; a coefficient is the
Hamming weight of the first `mu/2` bits of its piece minus the Hamming weight of the last `mu/2` bits.
-/
namespace Saber.Spec

/-- Number of set bits among `f 0, ..., f (n-1)`. -/
def hammingWeight (n : Nat) (f : Nat → Bool) : Nat := ((List.range n).map fun j => (f j).toNat).sum

/-- Centred binomial sample of parameter `mu` from a byte string of at least `256 * mu / 8` bytes. -/
def centredBinomial (mu : Nat) (bs : List Byte) : Poly := fun i =>
  (hammingWeight (mu / 2) fun j => bitAt bs (mu * i.val + j) : Int) -
    (hammingWeight (mu / 2) fun j => bitAt bs (mu * i.val + mu / 2 + j) : Int)

end Saber.Spec
