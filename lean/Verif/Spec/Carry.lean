import Verif.CSem
/-! # Specification: the carries of a counter -/
namespace Saber.Spec.Carry

/-- The number of the low `k` bytes that wrap from 255 to 0 when 1 is added to `x`: byte `i` wraps if and only if `256^(i+1)` divides
`x + 1`. -/
def wraps (k x : Nat) : Nat := (List.range k).countP fun i => decide (256 ^ (i + 1) ∣ x + 1)

end Saber.Spec.Carry
